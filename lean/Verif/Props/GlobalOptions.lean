import Verif.Model.GlobalOptions
import Mathlib.Tactic.SplitIfs
import Mathlib.Tactic.Linarith

/-!
# C140: options given for a global method reach the optimiser
-/

namespace Verif.Props
open Verif Verif.GlobalOptions

variable {ν τ : Type}

/-! ## Dictionaries -/

theorem copied_get (user : PyDict String (Given ν)) (k : String) : (copied user).get? k = (user.get? k).map .given := by
  obtain ⟨l⟩ := user
  simp only [copied, PyDict.get?]
  induction l with
  | nil => rfl
  | cons p r ih =>
    obtain ⟨a, b⟩ := p
    by_cases h : a = k <;> simp [PyDict.lookupL, h, ih]

theorem copied_keys (user : PyDict String (Given ν)) : (copied user).keys = user.keys := by
  simp [copied, PyDict.keys, Function.comp_def]

theorem wf_erase {α : Type} (d : PyDict String α) (k : String) (h : d.WF) : (d.erase k).WF := by
  unfold PyDict.WF PyDict.keys PyDict.erase at *
  exact (List.filter_sublist.map Prod.fst).nodup h

theorem lookupL_of_not_mem {α : Type} (l : List (String × α)) (k : String) (h : k ∉ l.map Prod.fst) :
    PyDict.lookupL l k = none := by
  induction l with
  | nil => rfl
  | cons p r ih =>
    obtain ⟨a, b⟩ := p
    simp only [List.map_cons, List.mem_cons, not_or] at h
    simp [PyDict.lookupL, Ne.symm h.1, ih h.2]

theorem askFile_get (key : String) (g : PyDict String (Handed ν)) (hk : key ≠ "write_intermediate_file") (k : String) :
    (askFile key g).get? k =
      if k = key then none
      else if k = "write_intermediate_file" ∧ (g.get? key).isSome then some (.const "True") else g.get? k := by
  unfold askFile
  cases h : g.get? key with
  | none =>
    by_cases e : k = key
    · rw [e, if_pos rfl, h]
    · simp [e]
  | some v =>
    simp only [PyDict.get?_set, PyDict.get?_erase, Option.isSome_some, and_true]
    by_cases e : k = key
    · subst e; simp [hk.symm]
    · by_cases e2 : k = "write_intermediate_file"
      · subst e2; simp [e]
      · simp [e, e2, Ne.symm e, Ne.symm e2]

theorem askFile_wf (key : String) (g : PyDict String (Handed ν)) (h : g.WF) : (askFile key g).WF := by
  unfold askFile
  split
  · exact PyDict.WF_set _ _ _ (wf_erase _ _ h)
  · exact h

theorem copied_wf (user : PyDict String (Given ν)) (h : user.WF) : (copied user).WF := by
  unfold PyDict.WF
  rw [copied_keys]; exact h

theorem callback_wf (P : Plain ν) (user : PyDict String (Given ν)) (h : user.WF) : (callbackOptions P user).WF := by
  have hg := askFile_wf "filename" _ (askFile_wf "obj_cut" _ (copied_wf user h))
  unfold callbackOptions
  simp only
  split
  · split
    · exact PyDict.WF_set _ _ _ (wf_erase _ _ hg)
    · exact hg
  · exact hg

/-- Specification: the user asks for a file of intermediate results. -/
def AsksForFile (P : Plain ν) (user : PyDict String (Given ν)) : Prop :=
  user.contains "obj_cut" = true ∨ user.contains "filename" = true ∨
    ∃ v, user.get? "write_intermediate_file" = some v ∧ (Handed.given v).truthy P = true

/-- Specification: the options of the file, with its callback instead of them. -/
theorem callback_get (P : Plain ν) (user : PyDict String (Given ν)) (k : String) :
    (AsksForFile P user → (callbackOptions P user).get? k =
      if k ∈ fileOptions then none
      else if k = "callback" then some (.writer (user.get? "obj_cut") (user.get? "filename"))
      else (user.get? k).map .given) ∧
    (¬ AsksForFile P user → (callbackOptions P user).get? k = (user.get? k).map .given) := by
  have hg : ∀ k, (askFile "filename" (askFile "obj_cut" (copied user))).get? k =
      if k = "obj_cut" ∨ k = "filename" then none
      else if k = "write_intermediate_file" ∧ (user.contains "obj_cut" = true ∨ user.contains "filename" = true) then
        some (.const "True")
      else (user.get? k).map .given := by
    intro k
    rw [askFile_get _ _ (by decide), askFile_get _ _ (by decide), askFile_get _ _ (by decide), copied_get, copied_get, copied_get]
    simp only [PyDict.contains]
    by_cases h1 : k = "filename"
    · simp [h1]
    · by_cases h2 : k = "obj_cut"
      · simp [h2]
      · by_cases h3 : k = "write_intermediate_file"
        · by_cases e1 : (user.get? "obj_cut").isSome = true <;> by_cases e2 : (user.get? "filename").isSome = true <;>
            simp [h3, e1, e2]
        · simp [h1, h2, h3]
  constructor
  · intro ha
    have hw : ∃ v, (askFile "filename" (askFile "obj_cut" (copied user))).get? "write_intermediate_file" = some v ∧
        v.truthy P = true := by
      rw [hg]
      by_cases hc : user.contains "obj_cut" = true ∨ user.contains "filename" = true
      · exact ⟨.const "True", by simp [hc], rfl⟩
      · obtain h | h | ⟨v, h1, h2⟩ := ha
        · exact absurd (.inl h) hc
        · exact absurd (.inr h) hc
        · exact ⟨.given v, by simp [hc, h1], h2⟩
    obtain ⟨v, h1, h2⟩ := hw
    unfold callbackOptions
    simp only [h1, h2, if_true]
    rw [PyDict.get?_set, PyDict.get?_erase, hg]
    unfold fileOptions
    by_cases e1 : k = "callback"
    · simp [e1]
    · by_cases e2 : k = "write_intermediate_file"
      · simp [e2]
      · simp only [Ne.symm e1, Ne.symm e2, e1, e2, if_false, List.mem_cons, List.not_mem_nil, or_false, false_and]
  · intro ha
    have hn : ¬ (user.contains "obj_cut" = true ∨ user.contains "filename" = true) :=
      fun h => ha (h.elim .inl fun h => .inr (.inl h))
    have hc : user.get? "obj_cut" = none ∧ user.get? "filename" = none := by
      simpa [PyDict.contains, Option.isSome_iff_ne_none] using not_or.mp hn
    have key : (askFile "filename" (askFile "obj_cut" (copied user))).get? k = (user.get? k).map .given := by
      rw [hg]
      by_cases e : k = "obj_cut" ∨ k = "filename"
      · rcases e with e | e <;> simp [e, hc.1, hc.2]
      · simp [e, hn]
    unfold callbackOptions
    simp only
    split
    · rename_i v hv
      rw [hg] at hv
      split
      · exfalso
        rename_i ht
        cases hw : user.get? "write_intermediate_file" with
        | none => simp [hn, hw] at hv
        | some u =>
          simp [hn, hw] at hv
          exact ha (.inr (.inr ⟨u, hw, by rw [hv]; exact ht⟩))
      · exact key
    · exact key

/-! ## Loops -/

theorem copyLoop_get (skip : List String) (l : List (String × Handed ν)) (hl : (l.map Prod.fst).Nodup)
    (d : PyDict String (Handed ν)) (k : String) :
    (copyLoop skip l d).get? k = if k ∈ skip then d.get? k else (PyDict.lookupL l k).or (d.get? k) := by
  induction l generalizing d with
  | nil => simp [copyLoop, PyDict.lookupL]
  | cons p r ih =>
    obtain ⟨a, b⟩ := p
    simp only [List.map_cons, List.nodup_cons] at hl
    unfold copyLoop
    by_cases h : skip.contains a = true
    · rw [if_pos h, ih hl.2]
      by_cases e : a = k
      · subst e; simp [List.contains_iff_mem.mp h]
      · simp [PyDict.lookupL, e]
    · rw [if_neg h, ih hl.2, PyDict.get?_set]
      by_cases e : a = k
      · subst e
        have : a ∉ skip := fun h' => h (List.contains_iff_mem.mpr h')
        simp [PyDict.lookupL, this, lookupL_of_not_mem r a hl.1]
      · simp [PyDict.lookupL, e]

theorem copyLoop_keys (skip : List String) (l : List (String × Handed ν)) (d : PyDict String (Handed ν)) (k : String)
    (h : k ∈ (copyLoop skip l d).keys) : k ∈ d.keys ∨ (k ∈ l.map Prod.fst ∧ k ∉ skip) := by
  induction l generalizing d with
  | nil => exact .inl h
  | cons p r ih =>
    obtain ⟨a, b⟩ := p
    unfold copyLoop at h
    split at h
    · rcases ih d h with h | ⟨h, h'⟩
      · exact .inl h
      · exact .inr ⟨by simp [h], h'⟩
    · rename_i hs
      rcases ih _ h with h | ⟨h, h'⟩
      · by_cases e : a = k
        · right
          refine ⟨by simp [e], fun h' => hs ?_⟩
          rw [e]; exact List.contains_iff_mem.mpr h'
        · left
          rw [PyDict.mem_keys_iff, PyDict.get?_set_ne _ _ e] at h
          exact (PyDict.mem_keys_iff _ _).mpr h
      · exact .inr ⟨by simp [h], h'⟩

/-- Without a `MultiprocessingJob` the loop copies. -/
theorem workerLoop_plain (P : Plain ν) (g : PyDict String (Handed ν)) (skip : List String) (l : List (String × Handed ν))
    (hl : "MultiprocessingObject" ∉ l.map Prod.fst) (d : PyDict String (Handed ν)) (b : Bool) :
    workerLoop P g skip l (d, b) = .ok (copyLoop skip l d, b) := by
  induction l generalizing d with
  | nil => rfl
  | cons p r ih =>
    obtain ⟨a, v⟩ := p
    simp only [List.map_cons, List.mem_cons, not_or] at hl
    unfold workerLoop copyLoop
    rw [if_neg (Ne.symm hl.1)]
    split
    · exact ih hl.2 d
    · exact ih hl.2 _

theorem workerLoop_append (P : Plain ν) (g : PyDict String (Handed ν)) (skip : List String) (l t : List (String × Handed ν))
    (hl : "MultiprocessingObject" ∉ l.map Prod.fst) (d : PyDict String (Handed ν)) (b : Bool) :
    workerLoop P g skip (l ++ t) (d, b) = workerLoop P g skip t (copyLoop skip l d, b) := by
  induction l generalizing d with
  | nil => rfl
  | cons p r ih =>
    obtain ⟨a, v⟩ := p
    simp only [List.map_cons, List.mem_cons, not_or] at hl
    rw [List.cons_append, copyLoop]
    conv_lhs => unfold workerLoop
    rw [if_neg (Ne.symm hl.1)]
    split
    · exact ih hl.2 d
    · exact ih hl.2 _

/-- Specification: the `MultiprocessingJob`, with `n` cores, comes after the number of workers. -/
def PoolAfterWorkers (n : Nat) {α : Type} (pool : Nat → α) (l : List (String × α)) : Prop :=
  ∃ l1 l2, l = l1 ++ ("MultiprocessingObject", pool n) :: l2 ∧ "MultiprocessingObject" ∉ l1.map Prod.fst ∧
    "MultiprocessingObject" ∉ l2.map Prod.fst ∧ "workers" ∉ l2.map Prod.fst

theorem setL_keys {α : Type} (l : List (String × α)) (k : String) (v : α) (a : String)
    (h : a ∈ (PyDict.setL l k v).map Prod.fst) : a = k ∨ a ∈ l.map Prod.fst := by
  induction l with
  | nil => simpa [PyDict.setL] using h
  | cons p r ih =>
    obtain ⟨c, w⟩ := p
    unfold PyDict.setL at h
    split at h
    · right; simpa using h
    · simp only [List.map_cons, List.mem_cons] at h ⊢
      rcases h with h | h
      · exact .inr (.inl h)
      · rcases ih h with h | h
        · exact .inl h
        · exact .inr (.inr h)

theorem setL_append {α : Type} (l r : List (String × α)) (k : String) (v : α) :
    PyDict.setL (l ++ r) k v =
      if k ∈ l.map Prod.fst then PyDict.setL l k v ++ r else l ++ PyDict.setL r k v := by
  induction l with
  | nil => simp
  | cons p t ih =>
    obtain ⟨c, w⟩ := p
    by_cases e : c = k
    · simp [PyDict.setL, e]
    · simp only [List.cons_append, PyDict.setL, e, if_false, ih, List.map_cons, List.mem_cons, Ne.symm e, false_or]
      split <;> rfl

theorem after_set {n : Nat} {α : Type} {pool : Nat → α} (d : PyDict String α) (k : String) (v : α)
    (h : PoolAfterWorkers n pool d.entries) (hk : k ≠ "MultiprocessingObject") (hk' : k ≠ "workers") :
    PoolAfterWorkers n pool (d.set k v).entries := by
  obtain ⟨l1, l2, h, h1, h2, h3⟩ := h
  unfold PyDict.set
  simp only [h, setL_append]
  split
  · refine ⟨_, l2, rfl, ?_, h2, h3⟩
    intro hm
    rcases setL_keys _ _ _ _ hm with e | e
    · exact hk e.symm
    · exact h1 e
  · refine ⟨l1, PyDict.setL l2 k v, by simp [PyDict.setL, Ne.symm hk], h1, ?_, ?_⟩
    · intro hm
      rcases setL_keys _ _ _ _ hm with e | e
      · exact hk e.symm
      · exact h2 e
    · intro hm
      rcases setL_keys _ _ _ _ hm with e | e
      · exact hk' e.symm
      · exact h3 e

theorem after_erase {n : Nat} {α : Type} {pool : Nat → α} (d : PyDict String α) (k : String)
    (h : PoolAfterWorkers n pool d.entries) (hk : k ≠ "MultiprocessingObject") :
    PoolAfterWorkers n pool (d.erase k).entries := by
  obtain ⟨l1, l2, h, h1, h2, h3⟩ := h
  unfold PyDict.erase
  have hsub : ∀ (l : List (String × α)) (a : String), a ∉ l.map Prod.fst →
      a ∉ (l.filter fun p => p.1 ≠ k).map Prod.fst := fun l a ha hm => ha ((List.filter_sublist.map Prod.fst).subset hm)
  exact ⟨_, _, by simp [h, Ne.symm hk], hsub l1 _ h1, hsub l2 _ h2, hsub l2 _ h3⟩

theorem after_copied {n : Nat} (user : PyDict String (Given ν)) (h : PoolAfterWorkers n Given.pool user.entries) :
    PoolAfterWorkers n (fun n => Handed.given (.pool n)) (copied user).entries := by
  obtain ⟨l1, l2, h, h1, h2, h3⟩ := h
  have hm : ∀ l : List (String × Given ν), (l.map fun p => (p.1, Handed.given p.2)).map Prod.fst = l.map Prod.fst := by
    intro l
    rw [List.map_map]
    rfl
  refine ⟨l1.map fun p => (p.1, .given p.2), l2.map fun p => (p.1, .given p.2), by simp [copied, h], ?_, ?_, ?_⟩ <;>
    rw [hm] <;> assumption

theorem after_askFile {n : Nat} (key : String) (g : PyDict String (Handed ν)) (hk : key ≠ "MultiprocessingObject")
    (h : PoolAfterWorkers n (fun n => Handed.given (.pool n)) g.entries) :
    PoolAfterWorkers n (fun n => Handed.given (.pool n)) (askFile key g).entries := by
  unfold askFile
  split
  · exact after_set _ _ _ (after_erase _ _ h hk) (by decide) (by decide)
  · exact h

theorem after_callback {n : Nat} (P : Plain ν) (user : PyDict String (Given ν))
    (h : PoolAfterWorkers n Given.pool user.entries) :
    PoolAfterWorkers n (fun n => Handed.given (.pool n)) (callbackOptions P user).entries := by
  have hg := after_askFile "filename" _ (by decide) (after_askFile "obj_cut" _ (by decide) (after_copied user h))
  unfold callbackOptions
  simp only
  split
  · split
    · exact after_set _ _ _ (after_erase _ _ hg (by decide)) (by decide) (by decide)
    · exact hg
  · exact hg

/-- What `fit` hands to a method: the options of the user without the name of the method, and the `MultiprocessingJob` if there is
one. -/
theorem c140_fit (mp : Option Nat) (user : PyDict String (Given ν)) (k : String) :
    (fitOptions mp user).get? k = if k = "method" then none else
      match mp with
      | none => user.get? k
      | some n => if k = "MultiprocessingObject" then some (.pool n) else user.get? k := by
  unfold fitOptions
  rw [PyDict.get?_erase]
  by_cases h : k = "method"
  · rw [if_pos h, if_pos h.symm]
  · rw [if_neg h, if_neg (Ne.symm h)]
    cases mp with
    | none => rfl
    | some n =>
      simp only [PyDict.get?_set]
      by_cases h' : k = "MultiprocessingObject"
      · rw [if_pos h', if_pos h'.symm]
      · rw [if_neg h', if_neg (Ne.symm h')]

/-- `fit` puts the `MultiprocessingJob` at the end of the user's options. -/
theorem c140_fit_order (n : Nat) (user : PyDict String (Given ν)) (hu : "MultiprocessingObject" ∉ user.keys) :
    PoolAfterWorkers n Given.pool (fitOptions (some n) user).entries := by
  refine after_erase _ _ ⟨user.entries, [], ?_, hu, by simp, by simp⟩ (by decide)
  show PyDict.setL user.entries _ _ = _
  have := setL_append user.entries [] "MultiprocessingObject" (Given.pool n)
  rw [List.append_nil] at this
  rw [this]
  exact if_neg hu

/-- The loop with a `MultiprocessingJob` after the number of workers. -/
theorem workerLoop_pool (P : Plain ν) (g : PyDict String (Handed ν)) (hg : g.WF) (skip : List String)
    (hs : "workers" ∉ skip) (n : Nat) (f : Bool)
    (hf : flagWorkers P g = .ok f) (ha : PoolAfterWorkers n (fun n => Handed.given (.pool n)) g.entries)
    (d : PyDict String (Handed ν)) :
    ∃ d', workerLoop P g skip g.entries (d, false) = .ok (d', decide (1 < n) && f) ∧
      ∀ k, d'.get? k = if k ∈ skip ∨ k = "MultiprocessingObject" then d.get? k
        else if k = "workers" ∧ 1 < n ∧ f = true then some .poolMap else (g.get? k).or (d.get? k) := by
  obtain ⟨l1, l2, h, h1, h2, h3⟩ := ha
  have hnd : (l1.map Prod.fst).Nodup ∧ (l2.map Prod.fst).Nodup := by
    unfold PyDict.WF PyDict.keys at hg
    rw [h] at hg
    simp only [List.map_append, List.map_cons, List.nodup_append, List.nodup_cons] at hg
    exact ⟨hg.1, hg.2.1.2⟩
  have hlook : ∀ k, k ≠ "MultiprocessingObject" → g.get? k = (PyDict.lookupL l2 k).or (PyDict.lookupL l1 k) := by
    intro k hk
    unfold PyDict.get?
    unfold PyDict.WF PyDict.keys at hg
    rw [h] at hg ⊢
    clear h h1 hnd
    induction l1 with
    | nil => simp [PyDict.lookupL, Ne.symm hk]
    | cons p r ih =>
      obtain ⟨a, v⟩ := p
      simp only [List.cons_append, List.map_cons, List.nodup_cons, List.map_append, List.mem_append, List.mem_cons, not_or] at hg
      have := ih (by simpa using hg.2)
      simp only [List.cons_append, PyDict.lookupL]
      by_cases e : a = k
      · subst e
        simp [lookupL_of_not_mem l2 a hg.1.2.2]
      · simp only [e, if_false]; exact this
  have hrun : workerLoop P g skip g.entries (d, false) =
      if 1 < n ∧ f = true then .ok (copyLoop skip l2 ((copyLoop skip l1 d).set "workers" .poolMap), true)
      else .ok (copyLoop skip l2 (copyLoop skip l1 d), false) := by
    rw [h, workerLoop_append P g skip l1 _ h1]
    unfold workerLoop
    rw [if_pos rfl, hf]
    simp only [workerLoop_plain P g skip l2 h2]
  rw [hrun]
  by_cases hc : 1 < n ∧ f = true
  · refine ⟨copyLoop skip l2 ((copyLoop skip l1 d).set "workers" .poolMap), by rw [if_pos hc]; simp [hc], ?_⟩
    intro k
    rw [copyLoop_get _ _ hnd.2, PyDict.get?_set, copyLoop_get _ _ hnd.1]
    by_cases e1 : k ∈ skip
    · have : "workers" ≠ k := fun e => hs (e ▸ e1)
      simp [e1, this]
    · by_cases e2 : k = "MultiprocessingObject"
      · subst e2
        simp [e1, lookupL_of_not_mem _ _ h2, lookupL_of_not_mem _ _ h1]
      · by_cases e3 : k = "workers"
        · subst e3
          simp [e1, hc, lookupL_of_not_mem _ _ h3]
        · simp [e1, e2, e3, Ne.symm e3, hlook k e2, Option.or_assoc]
  · refine ⟨copyLoop skip l2 (copyLoop skip l1 d), by
      rw [if_neg hc]
      by_cases h : 1 < n <;> simp_all, ?_⟩
    intro k
    rw [copyLoop_get _ _ hnd.2, copyLoop_get _ _ hnd.1]
    by_cases e1 : k ∈ skip
    · simp [e1]
    · by_cases e2 : k = "MultiprocessingObject"
      · subst e2
        simp [e1, lookupL_of_not_mem _ _ h2, lookupL_of_not_mem _ _ h1]
      · simp [e1, e2, hc, hlook k e2, Option.or_assoc]

/-- Specification: the pool in the options, none or one of `n` cores given after the number of workers. -/
def PoolIs (user : PyDict String (Given ν)) : Option Nat → Prop
  | none => "MultiprocessingObject" ∉ user.keys
  | some n => PoolAfterWorkers n Given.pool user.entries

/-- Specification: the number of workers, if given, is comparable with one, and `f` says whether it is larger. -/
def WorkersAre (P : Plain ν) (user : PyDict String (Given ν)) (f : Bool) : Prop :=
  (user.get? "workers" = none ∧ f = false) ∨ ∃ v, user.get? "workers" = some (.plain v) ∧ P.aboveOne v = .ok f

/-- Specification: the optimiser shall use the pool: one of several cores, and more than one worker. -/
def Pooled (pool : Option Nat) (f : Bool) : Prop := ∃ n, pool = some n ∧ 1 < n ∧ f = true

instance (pool : Option Nat) (f : Bool) : Decidable (Pooled pool f) :=
  match pool with
  | none => isFalse (fun ⟨_, h, _⟩ => by cases h)
  | some n => if h : 1 < n ∧ f = true then isTrue ⟨n, rfl, h⟩ else isFalse (fun ⟨m, e, h'⟩ => by cases e; exact h h')

/-- Specification: every argument is known to the function and not given by the code itself. -/
def Accepted (known fixed : List String) (d : PyDict String (Handed ν)) : Prop :=
  ∀ k, (d.get? k).isSome = true → k ∈ known ∧ k ∉ fixed

theorem scipyCall_ok (known fixed : List String) (d : PyDict String (Handed ν)) (h : Accepted known fixed d) :
    scipyCall known fixed d = .ok d := by
  unfold scipyCall
  rw [if_pos]
  rw [List.all_eq_true]
  intro k hk
  rw [PyDict.mem_keys_iff] at hk
  obtain ⟨v, hv⟩ := hk
  obtain ⟨h1, h2⟩ := h k (by rw [hv]; rfl)
  simp [h1, h2]

theorem scipyCall_error (known fixed : List String) (d : PyDict String (Handed ν)) (h : ¬ Accepted known fixed d) :
    scipyCall known fixed d = .error .typeError := by
  unfold scipyCall
  rw [if_neg]
  intro hall
  apply h
  intro k hk
  rw [List.all_eq_true] at hall
  have := hall k ((PyDict.mem_keys_iff _ _).mpr (Option.isSome_iff_exists.mp hk))
  simpa using this

theorem flagWorkers_copied (P : Plain ν) (user : PyDict String (Given ν)) (g : PyDict String (Handed ν)) (f : Bool)
    (hg : g.get? "workers" = (user.get? "workers").map .given) (hw : WorkersAre P user f) : flagWorkers P g = .ok f := by
  unfold flagWorkers
  rw [hg]
  rcases hw with ⟨h, e⟩ | ⟨v, h, e⟩
  · rw [h, e]; rfl
  · rw [h]; exact e

/-- The loop of differential evolution and brute. -/
theorem workerLoop_spec (P : Plain ν) (g : PyDict String (Handed ν)) (hg : g.WF)
    (skip : List String) (hs : "workers" ∉ skip) (pool : Option Nat) (f : Bool) (hf : flagWorkers P g = .ok f)
    (hp : match pool with
      | none => "MultiprocessingObject" ∉ g.keys
      | some n => PoolAfterWorkers n (fun n => Handed.given (.pool n)) g.entries)
    (d : PyDict String (Handed ν)) :
    ∃ d', workerLoop P g skip g.entries (d, false) = .ok (d', decide (Pooled pool f)) ∧
      ∀ k, d'.get? k = if k ∈ skip ∨ k = "MultiprocessingObject" then d.get? k
        else if k = "workers" ∧ Pooled pool f then some .poolMap else (g.get? k).or (d.get? k) := by
  cases pool with
  | none =>
    have hn : ¬ Pooled none f := fun ⟨_, h, _⟩ => by cases h
    refine ⟨copyLoop skip g.entries d, by rw [workerLoop_plain P g skip _ hp]; simp [hn], ?_⟩
    intro k
    rw [copyLoop_get _ _ hg]
    by_cases e1 : k ∈ skip
    · simp [e1]
    · by_cases e2 : k = "MultiprocessingObject"
      · subst e2
        simp [e1, lookupL_of_not_mem g.entries _ hp]
      · simp [e1, e2, hn]
        rfl
  | some n =>
    obtain ⟨d', h1, h2⟩ := workerLoop_pool P g hg skip hs n f hf hp d
    have hiff : Pooled (some n) f ↔ 1 < n ∧ f = true :=
      ⟨fun ⟨m, e, h⟩ => by cases e; exact h, fun h => ⟨n, rfl, h⟩⟩
    refine ⟨d', ?_, ?_⟩
    · rw [h1]
      congr 2
      by_cases h : 1 < n <;> cases f <;> simp [hiff, h]
    · intro k
      rw [h2]
      simp only [hiff]

open scoped Classical in
/-- Specification: the keyword arguments of `scipy.optimize.differential_evolution`. -/
noncomputable def evolutionArgs (P : Plain ν) (user : PyDict String (Given ν)) (constraints : Bool) (pooled : Prop)
    (k : String) : Option (Handed ν) :=
  if k = "MultiprocessingObject" ∨ k ∈ fileOptions then none
  else if k = "constraints" ∧ constraints = true then some (.made "constraints")
  else if k = "callback" ∧ AsksForFile P user then some (.writer (user.get? "obj_cut") (user.get? "filename"))
  else if k = "workers" ∧ pooled then some .poolMap
  else ((user.get? k).map Handed.given).or (if k = "init" then some (.const "random") else none)

open scoped Classical in
/-- **C140 (differential evolution).** The optimiser gets every option of the user with its value, except those of the file,
which become one callback, and the pool, which becomes the workers if more than one is wanted; the default of `init` is used
only if the user gives none; nothing else is handed on. The data sets lose their pool exactly when the optimiser uses it. The
call fails exactly if scipy does not know an argument. -/
theorem c140_evolution (P : Plain ν) (known : List String) (user : PyDict String (Given ν)) (hu : user.WF)
    (constraints : Bool) (pool : Option Nat) (hp : PoolIs user pool) (f : Bool) (hw : WorkersAre P user f) (data : DataSets τ) :
    ∃ d, (∀ k, d.get? k = evolutionArgs P user constraints (Pooled pool f) k) ∧
      evolution P known user constraints data =
        if Accepted known ["func", "bounds", "args"] d then .ok ⟨d, if Pooled pool f then stripData data else data⟩
        else .error .typeError := by
  have hcb := callback_get P user
  have hget : ∀ k, k ∉ fileOptions → k ≠ "callback" → (callbackOptions P user).get? k = (user.get? k).map .given := by
    intro k h1 h2
    by_cases ha : AsksForFile P user
    · rw [(hcb k).1 ha, if_neg h1, if_neg h2]
    · exact (hcb k).2 ha
  obtain ⟨d, h1, h2⟩ := workerLoop_spec P (callbackOptions P user) (callback_wf P user hu) fileOptions (by decide) pool f
    (flagWorkers_copied P user _ f (hget _ (by decide) (by decide)) hw)
    (by
      cases pool with
      | none =>
        intro hm
        rw [PyDict.mem_keys_iff, hget _ (by decide) (by decide)] at hm
        obtain ⟨v, hv⟩ := hm
        rw [Option.map_eq_some_iff] at hv
        obtain ⟨a, ha, -⟩ := hv
        exact hp ((PyDict.mem_keys_iff _ _).mpr ⟨a, ha⟩)
      | some n => exact after_callback P user hp)
    ⟨[("init", .const "random")]⟩
  have hinit : ∀ k, (⟨[("init", .const "random")]⟩ : PyDict String (Handed ν)).get? k =
      if k = "init" then some (.const "random") else none := by
    intro k
    simp only [PyDict.get?, PyDict.lookupL, eq_comm]
  have hd : ∀ k, d.get? k = evolutionArgs P user false (Pooled pool f) k := by
    intro k
    rw [h2, hinit]
    unfold evolutionArgs
    by_cases e1 : k = "MultiprocessingObject" ∨ k ∈ fileOptions
    · rw [if_pos e1, if_pos (e1.symm)]
      rw [if_neg]
      rintro rfl
      revert e1
      decide
    · rw [if_neg e1, if_neg (fun h => e1 h.symm)]
      have e2 := (not_or.mp e1).2
      simp only [Bool.false_eq_true, and_false, if_false]
      by_cases e3 : k = "callback"
      · subst e3
        rw [if_neg (by rintro ⟨h, -⟩; revert h; decide), if_neg (by decide)]
        by_cases ha : AsksForFile P user
        · simp [ha, (hcb "callback").1 ha, fileOptions]
        · simp [ha, (hcb "callback").2 ha]
      · simp only [e3, false_and, if_false, hget k e2 e3]
        by_cases hP : k = "workers" ∧ Pooled pool f
        · rw [if_pos hP, if_pos hP]
        · rw [if_neg hP, if_neg hP]
  refine ⟨if constraints then d.set "constraints" (.made "constraints") else d, ?_, ?_⟩
  · intro k
    cases constraints with
    | false => exact hd k
    | true =>
      simp only [if_true, PyDict.get?_set, hd]
      unfold evolutionArgs
      by_cases e : k = "constraints"
      · subst e; simp [fileOptions]
      · simp [e, Ne.symm e]
  · unfold evolution
    simp only [h1]
    by_cases hacc : Accepted known ["func", "bounds", "args"]
        (if constraints then d.set "constraints" (.made "constraints") else d)
    · rw [scipyCall_ok _ _ _ hacc, if_pos hacc]
      simp
    · rw [scipyCall_error _ _ _ hacc, if_neg hacc]

/-- **C140 (differential evolution, acceptance).** If scipy knows the arguments of the code, and every option of the user that
does not belong to the file or the pool, the call is accepted, whichever of the options of the file are given. -/
theorem c140_evolution_accepted (P : Plain ν) (known : List String) (user : PyDict String (Given ν)) (hu : user.WF)
    (constraints : Bool) (pool : Option Nat) (hp : PoolIs user pool) (f : Bool) (hw : WorkersAre P user f) (data : DataSets τ)
    (hk : ∀ k ∈ ["init", "callback", "workers", "constraints"], k ∈ known)
    (hopts : ∀ k ∈ user.keys, k = "MultiprocessingObject" ∨ k ∈ fileOptions ∨ (k ∈ known ∧ k ∉ ["func", "bounds", "args"])) :
    ∃ c, evolution P known user constraints data = .ok c := by
  obtain ⟨d, h1, h2⟩ := c140_evolution P known user hu constraints pool hp f hw data
  rw [h2]
  refine ⟨_, if_pos ?_⟩
  intro k hk'
  rw [h1] at hk'
  unfold evolutionArgs at hk'
  by_cases e1 : k = "MultiprocessingObject" ∨ k ∈ fileOptions
  · simp [e1] at hk'
  · rw [if_neg e1] at hk'
    by_cases e2 : k ∈ ["init", "callback", "workers", "constraints"]
    · refine ⟨hk k e2, ?_⟩
      revert e2
      simp only [List.mem_cons, List.not_mem_nil, or_false]
      rintro (rfl | rfl | rfl | rfl) <;> decide
    · simp only [List.mem_cons, List.not_mem_nil, or_false, not_or] at e2
      simp only [e2, false_and, if_false, Option.or_none, Option.isSome_map] at hk'
      rcases hopts k ((PyDict.mem_keys_iff _ _).mpr (Option.isSome_iff_exists.mp hk')) with h | h | h
      · exact absurd (.inl h) e1
      · exact absurd (.inr h) e1
      · exact h

open scoped Classical in
/-- Specification: the keyword arguments of `scipy.optimize.brute`. -/
noncomputable def bruteArgs (user : PyDict String (Given ν)) (pooled : Prop) (k : String) : Option (Handed ν) :=
  if k = "MultiprocessingObject" then none
  else if k = "full_output" then some (.const "True")
  else if k = "workers" ∧ pooled then some .poolMap
  else ((user.get? k).map Handed.given).or
    (if k = "Ns" then some (.const "5") else if k = "finish" then some (.made "minimize") else none)

open scoped Classical in
/-- **C140 (brute force).** The optimiser gets every option of the user with its value, the pool as workers if more than one is
wanted, five points and the minimisation at the end unless the user says otherwise, and nothing else. -/
theorem c140_brute (P : Plain ν) (known : List String) (user : PyDict String (Given ν)) (hu : user.WF)
    (pool : Option Nat) (hp : PoolIs user pool) (f : Bool) (hw : WorkersAre P user f) (data : DataSets τ) :
    ∃ d, (∀ k, d.get? k = bruteArgs user (Pooled pool f) k) ∧
      brute P known user data =
        if Accepted known ["func", "ranges", "args"] d then .ok ⟨d, if Pooled pool f then stripData data else data⟩
        else .error .typeError := by
  obtain ⟨d, h1, h2⟩ := workerLoop_spec P (copied user) (copied_wf user hu) [] (by decide) pool f
    (flagWorkers_copied P user _ f (copied_get _ _) hw)
    (by
      cases pool with
      | none => show _ ∉ (copied user).keys; rw [copied_keys]; exact hp
      | some n => exact after_copied user hp)
    ⟨[("Ns", .const "5"), ("finish", .made "minimize")]⟩
  refine ⟨d.set "full_output" (.const "True"), ?_, ?_⟩
  · intro k
    rw [PyDict.get?_set, h2, copied_get]
    unfold bruteArgs
    by_cases e0 : k = "MultiprocessingObject"
    · subst e0; simp [PyDict.get?, PyDict.lookupL]
    · by_cases e1 : k = "full_output"
      · subst e1; simp
      · simp only [Ne.symm e1, e0, e1, if_false, List.not_mem_nil, or_false]
        by_cases hP : k = "workers" ∧ Pooled pool f
        · rw [if_pos hP, if_pos hP]
        · rw [if_neg hP, if_neg hP]
          simp only [PyDict.get?, PyDict.lookupL, eq_comm]
  · unfold brute
    simp only [h1]
    by_cases hacc : Accepted known ["func", "ranges", "args"] (d.set "full_output" (.const "True"))
    · rw [scipyCall_ok _ _ _ hacc, if_pos hacc]
      simp
    · rw [scipyCall_error _ _ _ hacc, if_neg hacc]

/-- Specification: the keyword arguments of `scipy.optimize.shgo`, without those of the local minimiser. -/
def shgoArgs (user : PyDict String (Given ν)) (constraints : Bool) (k : String) : Option (Handed ν) :=
  if k = "MultiprocessingObject" ∨ k ∈ fileOptions then none
  else if k = "constraints" ∧ constraints = true then some (.made "constraints")
  else ((user.get? k).map Handed.given).or (if k = "sampling_method" then some (.const "sobol") else none)

open scoped Classical in
/-- **C140 (shgo).** The optimiser gets every option of the user with its value, except those of the file and the pool, which
are dropped, and Sobol points unless the user says otherwise. -/
theorem c140_shgo (known : List String) (user : PyDict String (Given ν)) (hu : user.WF) (constraints : Bool)
    (data : DataSets τ) :
    ∃ d, (∀ k, d.get? k = shgoArgs user constraints k) ∧
      shgo known user constraints data =
        if Accepted known ["func", "bounds", "args", "minimizer_kwargs"] d then
          .ok ⟨d.set "minimizer_kwargs" (.made "minimizer_kwargs"), data⟩
        else .error .typeError := by
  set d := copyLoop ("MultiprocessingObject" :: fileOptions) (copied user).entries
    ⟨[("sampling_method", .const "sobol")]⟩ with hd
  refine ⟨if constraints then d.set "constraints" (.made "constraints") else d, ?_, ?_⟩
  · have hg : ∀ k, d.get? k = shgoArgs user false k := by
      intro k
      rw [hd, copyLoop_get _ _ (copied_wf user hu)]
      have : PyDict.lookupL (copied user).entries k = (user.get? k).map .given := copied_get user k
      rw [this]
      unfold shgoArgs
      by_cases e : k = "MultiprocessingObject" ∨ k ∈ fileOptions
      · rw [if_pos e, if_pos (by simpa using e)]
        have : k ≠ "sampling_method" := by
          rintro rfl
          revert e
          decide
        simp [PyDict.get?, PyDict.lookupL, Ne.symm this]
      · rw [if_neg e, if_neg (by simpa using e)]
        simp [PyDict.get?, PyDict.lookupL, eq_comm]
    intro k
    cases constraints with
    | false => exact hg k
    | true =>
      simp only [if_true, PyDict.get?_set, hg]
      unfold shgoArgs
      by_cases e : k = "constraints"
      · subst e; simp [fileOptions]
      · simp [e, Ne.symm e]
  · unfold shgo
    simp only [← hd]
    by_cases hacc : Accepted known ["func", "bounds", "args", "minimizer_kwargs"]
        (if constraints then d.set "constraints" (.made "constraints") else d)
    · rw [scipyCall_ok _ _ _ hacc, if_pos hacc]
    · rw [scipyCall_error _ _ _ hacc, if_neg hacc]

open scoped Classical in
/-- Specification: the keyword arguments of `scipy.optimize.basinhopping`, without the test of the bounds and those of the local
minimiser. -/
noncomputable def hoppingArgs (P : Plain ν) (user : PyDict String (Given ν)) (k : String) : Option (Handed ν) :=
  if k = "MultiprocessingObject" ∨ k = "minimizer_kwargs" then none
  else if AsksForFile P user ∧ k ∈ fileOptions then none
  else if k = "take_step" then some (.made "BasinStep")
  else if k = "callback" ∧ AsksForFile P user then some (.writer (user.get? "obj_cut") (user.get? "filename"))
  else ((user.get? k).map Handed.given).or
    (if k = "niter" then some (.const "10") else if k = "T" then some (.const "0.5")
      else if k = "niter_success" then some (.const "3") else none)

open scoped Classical in
/-- **C140 (basin hopping).** The optimiser gets every option of the user with its value, except the pool and the options of
the file if one is wanted, which become a callback; the step is the code's own; ten iterations, the temperature 0.5 and three
repetitions are used unless the user says otherwise. -/
theorem c140_hopping (P : Plain ν) (known : List String) (user : PyDict String (Given ν)) (hu : user.WF)
    (data : DataSets τ) :
    ∃ d, (∀ k, d.get? k = hoppingArgs P user k) ∧
      hopping P known user data =
        if Accepted known ["func", "x0", "accept_test", "minimizer_kwargs"] d then
          .ok ⟨(d.set "accept_test" (.made "BasinBounds")).set "minimizer_kwargs" (.made "minimizer_kwargs"), data⟩
        else .error .typeError := by
  set d := copyLoop ["MultiprocessingObject"] (callbackOptions P user).entries
    ⟨[("niter", .const "10"), ("T", .const "0.5"), ("niter_success", .const "3")]⟩ with hd
  have hcb := callback_get P user
  refine ⟨(d.set "take_step" (.made "BasinStep")).erase "minimizer_kwargs", ?_, ?_⟩
  · intro k
    rw [PyDict.get?_erase, PyDict.get?_set, hd, copyLoop_get _ _ (callback_wf P user hu)]
    have : PyDict.lookupL (callbackOptions P user).entries k = (callbackOptions P user).get? k := rfl
    rw [this]
    unfold hoppingArgs
    by_cases e0 : k = "MultiprocessingObject"
    · subst e0; simp [PyDict.get?, PyDict.lookupL]
    · by_cases e1 : k = "minimizer_kwargs"
      · subst e1; simp
      · simp only [e0, e1, Ne.symm e1, if_false, or_self, List.mem_singleton]
        by_cases e2 : k = "take_step"
        · subst e2; simp [fileOptions]
        · simp only [e2, Ne.symm e2, if_false]
          by_cases ha : AsksForFile P user
          · rw [(hcb k).1 ha]
            by_cases e3 : k ∈ fileOptions
            · rw [if_pos e3, if_pos ⟨ha, e3⟩]
              have : k ≠ "niter" ∧ k ≠ "T" ∧ k ≠ "niter_success" := by
                refine ⟨?_, ?_, ?_⟩ <;> (rintro rfl; revert e3; decide)
              simp [PyDict.get?, PyDict.lookupL, Ne.symm this.1, Ne.symm this.2.1, Ne.symm this.2.2]
            · simp only [e3, and_false, if_false]
              by_cases e4 : k = "callback"
              · subst e4; simp [ha]
              · simp [e4, PyDict.get?, PyDict.lookupL, eq_comm]
          · rw [(hcb k).2 ha]
            simp [ha, PyDict.get?, PyDict.lookupL, eq_comm]
  · unfold hopping
    simp only [← hd]
    by_cases hacc : Accepted known ["func", "x0", "accept_test", "minimizer_kwargs"]
        ((d.set "take_step" (.made "BasinStep")).erase "minimizer_kwargs")
    · rw [scipyCall_ok _ _ _ hacc, if_pos hacc]
    · rw [scipyCall_error _ _ _ hacc, if_neg hacc]

/-- **C140 (basin hopping, acceptance).** If scipy knows the arguments of the code, and every option of the user that does not
belong to the file or the pool, the call is accepted, provided a file is asked for or none of its options is given.  Missing: a
file is declined by an option (`c140_violated_hopping`). -/
theorem c140_hopping_accepted_partial (P : Plain ν) (known : List String) (user : PyDict String (Given ν)) (hu : user.WF)
    (data : DataSets τ)
    (hk : ∀ k ∈ ["niter", "T", "niter_success", "callback", "take_step"], k ∈ known)
    (hfile : AsksForFile P user ∨ ∀ k ∈ fileOptions, k ∉ user.keys)
    (hopts : ∀ k ∈ user.keys, k = "MultiprocessingObject" ∨ k = "minimizer_kwargs" ∨ k ∈ fileOptions ∨
      (k ∈ known ∧ k ∉ ["func", "x0", "accept_test"])) :
    ∃ c, hopping P known user data = .ok c := by
  classical
  obtain ⟨d, h1, h2⟩ := c140_hopping P known user hu data
  rw [h2]
  refine ⟨_, if_pos ?_⟩
  intro k hk'
  rw [h1] at hk'
  unfold hoppingArgs at hk'
  by_cases e1 : k = "MultiprocessingObject" ∨ k = "minimizer_kwargs"
  · simp [e1] at hk'
  · rw [if_neg e1] at hk'
    by_cases e2 : k ∈ ["niter", "T", "niter_success", "callback", "take_step"]
    · refine ⟨hk k e2, ?_⟩
      revert e2
      simp only [List.mem_cons, List.not_mem_nil, or_false]
      rintro (rfl | rfl | rfl | rfl | rfl) <;> decide
    · by_cases e3 : AsksForFile P user ∧ k ∈ fileOptions
      · simp [e3] at hk'
      · simp only [List.mem_cons, List.not_mem_nil, or_false, not_or] at e2
        simp only [e2, e3, false_and, if_false, Option.or_none, Option.isSome_map] at hk'
        have hm := (PyDict.mem_keys_iff _ _).mpr (Option.isSome_iff_exists.mp hk')
        rcases hopts k hm with h | h | h | ⟨h, h'⟩
        · exact absurd (.inl h) e1
        · exact absurd (.inr h) e1
        · rcases hfile with hf | hf
          · exact absurd ⟨hf, h⟩ e3
          · exact absurd hm (hf k h)
        · refine ⟨h, ?_⟩
          simp only [List.mem_cons, List.not_mem_nil, or_false, not_or] at h' ⊢
          exact ⟨h'.1, h'.2.1, h'.2.2, fun e => e1 (.inr e)⟩

/-- **C140 is violated by basin hopping**: the option that asks for no file, which is documented and the default, is handed on to
scipy, which does not know it; the fit fails. -/
theorem c140_violated_hopping (P : Plain ν) (known : List String) (user : PyDict String (Given ν)) (hu : user.WF) (v : ν)
    (h1 : user.get? "write_intermediate_file" = some (.plain v)) (hv : P.truthy v = false)
    (h2 : user.get? "obj_cut" = none) (h3 : user.get? "filename" = none) (hk : "write_intermediate_file" ∉ known)
    (data : DataSets τ) : hopping P known user data = .error .typeError := by
  classical
  obtain ⟨d, hd, hr⟩ := c140_hopping P known user hu data
  rw [hr, if_neg]
  intro hacc
  refine hk (hacc "write_intermediate_file" ?_).1
  rw [hd]
  have hn : ¬ AsksForFile P user := by
    rintro (h | h | ⟨w, h, h'⟩)
    · simp [PyDict.contains, h2] at h
    · simp [PyDict.contains, h3] at h
    · rw [h1] at h
      cases h
      simp [Handed.truthy, hv] at h'
  simp [hoppingArgs, hn, h1]

/-! ## Pools -/

/-- Specification: a data set carries a pool. -/
def CarriesPool (data : DataSets τ) : Prop := ∃ p ∈ data.entries, (p.2.get? "MultiprocessingObject").isSome = true

/-- **C140 (data sets in a pool).** Removing the pool leaves every other option of every data set as it is. -/
theorem c140_strip (data : DataSets τ) :
    ¬ CarriesPool (stripData data) ∧ (stripData data).keys = data.keys ∧
      ∀ i (h : i < data.entries.length) k, k ≠ "MultiprocessingObject" →
        ((stripData data).entries[i]'(by simpa [stripData] using h)).2.get? k = (data.entries[i]).2.get? k := by
  refine ⟨?_, ?_, ?_⟩
  · rintro ⟨p, hp, h⟩
    simp only [stripData, List.mem_map] at hp
    obtain ⟨q, -, rfl⟩ := hp
    simp [PyDict.get?_erase] at h
  · simp [stripData, PyDict.keys, Function.comp_def]
  · intro i h k hk
    simp [stripData, PyDict.get?_erase, Ne.symm hk]

/-- **C140 (workers).** When the optimiser gets the pool of the fit, the data sets carry no pool, so that no process of the
pool uses the pool again. -/
theorem c140_no_nested_pool (P : Plain ν) (known : List String) (user : PyDict String (Given ν)) (hu : user.WF)
    (constraints : Bool) (n : Nat) (hp : PoolIs user (some n)) (hn : 1 < n) (hw : WorkersAre P user true) (data : DataSets τ)
    (c : Call ν τ) (h : evolution P known user constraints data = .ok c ∨ brute P known user data = .ok c) :
    c.opts.get? "workers" = some .poolMap ∧ ¬ CarriesPool c.data := by
  classical
  have hpl : Pooled (some n) true := ⟨n, rfl, hn, rfl⟩
  rcases h with h | h
  · obtain ⟨d, h1, h2⟩ := c140_evolution P known user hu constraints (some n) hp true hw data
    rw [h2] at h
    split_ifs at h
    · cases h
      refine ⟨?_, (c140_strip data).1⟩
      simp [h1, evolutionArgs, hpl, fileOptions]
  · obtain ⟨d, h1, h2⟩ := c140_brute P known user hu (some n) hp true hw data
    rw [h2] at h
    split_ifs at h
    · cases h
      refine ⟨?_, (c140_strip data).1⟩
      simp [h1, bruteArgs, hpl]

/-- **C140** (a pool as number of workers): it cannot be compared with one, which is a `TypeError` as soon as there is a
pool among the options as well. -/
theorem c140_workers_pool (P : Plain ν) (known : List String) (k n : Nat) (data : DataSets τ) :
    brute P known ⟨[("workers", .pool k), ("MultiprocessingObject", .pool n)]⟩ data = .error .typeError := by
  simp [brute, copied, workerLoop, flagWorkers, PyDict.get?, PyDict.lookupL, Handed.aboveOne]

/-- **C140 is violated for all cores**: `workers = -1`, which asks scipy for all cores, is not larger than one; the optimiser
gets the number and starts its own processes, and the data sets that it sends to them still carry the pool of the fit. -/
theorem c140_violated_all_cores :
    let P : Plain Int := ⟨fun v => v ≠ 0, fun v => .ok (decide (1 < v))⟩
    let user : PyDict String (Given Int) := fitOptions (some 4) ⟨[("workers", .plain (-1))]⟩
    let data : DataSets Nat := ⟨[("data", ⟨[("MultiprocessingObject", 4)]⟩)]⟩
    ∃ c, evolution P ["init", "workers", "callback", "constraints"] user false data = .ok c ∧
      c.opts.get? "workers" = some (.given (.plain (-1))) ∧ CarriesPool c.data := by
  exact ⟨_, rfl, by decide, ⟨_, List.mem_singleton.mpr rfl, rfl⟩⟩

/-- **C140 (grid minimisation).** The pool is used exactly if it has several cores, and then the data sets carry none. -/
theorem c140_grid (user : PyDict String (Given ν)) (data : DataSets τ) (n : Nat)
    (h : user.get? "MultiprocessingObject" = some (.pool n)) :
    gridPool user data = .ok (decide (1 < n), if 1 < n then stripData data else data) := by
  unfold gridPool
  rw [h]
  by_cases hn : 1 < n <;> simp [hn]

/-- Two workers, four cores and a file: an example for differential evolution, with the pool put in by the fit. -/
example :
    let P : Plain Int := ⟨fun v => v ≠ 0, fun v => .ok (decide (1 < v))⟩
    let user : PyDict String (Given Int) := fitOptions (some 4) ⟨[("method", .plain 7), ("workers", .plain 2), ("obj_cut", .plain 9)]⟩
    PoolIs user (some 4) ∧ WorkersAre P user true ∧ user.WF ∧ AsksForFile P user :=
  ⟨c140_fit_order 4 _ (by decide), .inr ⟨2, by decide, by decide⟩, by unfold PyDict.WF; decide, .inl (by decide)⟩

/-! ## Results -/

/-- **C140 (one evaluation).** The method without a search returns the parameters given and their objective. -/
theorem c140_single {X Y : Type} (obj : X → Except PyErr Y) (guess : X) (user : PyDict String (Given ν)) (y : Y)
    (h : obj guess = .ok y) : singleObjective obj guess user = .ok (guess, y) := by
  unfold singleObjective
  rw [h]

theorem count_lt (m Ns : Nat) (hN : 2 < Ns) : (m + 2) * Ns < Ns ^ (m + 2) := by
  induction m with
  | zero => simp only [Nat.zero_add, Nat.pow_two]; exact Nat.mul_lt_mul_of_pos_right hN (by omega)
  | succ m ih =>
    rw [show m + 1 + 2 = (m + 2) + 1 from rfl, Nat.pow_succ]
    have h1 : (m + 2 + 1) * Ns ≤ (m + 2) * Ns * Ns := by
      refine Nat.mul_le_mul_right _ ?_
      have : (m + 2) * 2 ≤ (m + 2) * Ns := Nat.mul_le_mul_left _ hN.le
      omega
    have h2 : (m + 2) * Ns * Ns ≤ Ns ^ (m + 2) * Ns := Nat.mul_le_mul_right _ ih.le
    have h3 : (m + 2) * Ns * Ns < Ns ^ (m + 2) * Ns := Nat.mul_lt_mul_of_pos_right ih (by omega)
    omega

/-- **C140 is violated in the report of brute force**: the number of evaluations reported is smaller than the number of points of
the grid for two or more parameters and three or more points in each direction. -/
theorem c140_violated_count (dims Ns : Nat) (hd : 2 ≤ dims) (hN : 3 ≤ Ns) : bruteCount dims Ns < Ns ^ dims := by
  obtain ⟨m, rfl⟩ : ∃ m, dims = m + 2 := ⟨dims - 2, by omega⟩
  exact count_lt m Ns (by omega)

end Verif.Props
