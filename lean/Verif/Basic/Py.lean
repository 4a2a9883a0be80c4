/-!
# Shared vocabulary: python exceptions and dictionaries

Nothing in this file models despasito itself.  It fixes how the two python notions that every
model needs are represented: an exception is a value of `PyErr`, and a `dict` is an association
list in insertion order.
-/

namespace Verif

/-- The python exception classes that the modelled code can raise.  Messages are dropped. -/
inductive PyErr where
  | valueError
  | typeError
  | keyError
  | indexError
  | unboundLocal
  | importError
  | attributeError
  | zeroDivision
  | other
  deriving DecidableEq, Repr

/-- `Except PyErr` values can be compared, so that closed statements can be decided. -/
instance exceptDecEq {ε α : Type} [DecidableEq ε] [DecidableEq α] : DecidableEq (Except ε α) :=
  fun a b => match a, b with
    | .ok x, .ok y => if h : x = y then isTrue (h ▸ rfl) else isFalse (fun e => h (by cases e; rfl))
    | .error x, .error y =>
        if h : x = y then isTrue (h ▸ rfl) else isFalse (fun e => h (by cases e; rfl))
    | .ok _, .error _ => isFalse (fun e => by cases e)
    | .error _, .ok _ => isFalse (fun e => by cases e)

/-- A python dictionary: bindings in insertion order. -/
structure PyDict (κ ν : Type) where
  entries : List (κ × ν)
  deriving DecidableEq, Repr

namespace PyDict
variable {κ ν : Type} [DecidableEq κ]

/-- `{}` -/
def empty : PyDict κ ν := ⟨[]⟩

/-- Lookup in a list of bindings (first match). -/
def lookupL : List (κ × ν) → κ → Option ν
  | [], _ => none
  | (k', v) :: r, k => if k' = k then some v else lookupL r k

/-- Assignment in a list of bindings: replace in place, else append at the end. -/
def setL : List (κ × ν) → κ → ν → List (κ × ν)
  | [], k, v => [(k, v)]
  | (k', v') :: r, k, v => if k' = k then (k', v) :: r else (k', v') :: setL r k v

/-- `d.get(k)` -/
def get? (d : PyDict κ ν) (k : κ) : Option ν := lookupL d.entries k

/-- `d[k] = v` -/
def set (d : PyDict κ ν) (k : κ) (v : ν) : PyDict κ ν := ⟨setL d.entries k v⟩

/-- `del d[k]` (no effect when absent) -/
def erase (d : PyDict κ ν) (k : κ) : PyDict κ ν := ⟨d.entries.filter (fun p => p.1 ≠ k)⟩

/-- `k in d` -/
def contains (d : PyDict κ ν) (k : κ) : Bool := (d.get? k).isSome

/-- `list(d.keys())` -/
def keys (d : PyDict κ ν) : List κ := d.entries.map Prod.fst

/-- `d.update(e)` -/
def update (d e : PyDict κ ν) : PyDict κ ν := e.entries.foldl (fun acc p => acc.set p.1 p.2) d

/-- Python dictionaries have each key once. -/
def WF (d : PyDict κ ν) : Prop := d.keys.Nodup

@[simp] theorem get?_empty (k : κ) : (empty : PyDict κ ν).get? k = none := rfl

theorem lookupL_setL (l : List (κ × ν)) (k k' : κ) (v : ν) :
    lookupL (setL l k v) k' = if k = k' then some v else lookupL l k' := by
  induction l with
  | nil => simp [setL, lookupL]
  | cons p r ih =>
    obtain ⟨a, b⟩ := p
    by_cases h : a = k
    · subst h
      by_cases h2 : a = k' <;> simp [setL, lookupL, h2]
    · by_cases h2 : a = k'
      · subst h2
        have : ¬ k = a := fun e => h e.symm
        simp [setL, lookupL, h, this]
      · simp [setL, lookupL, h, h2, ih]

@[simp] theorem get?_set_self (d : PyDict κ ν) (k : κ) (v : ν) : (d.set k v).get? k = some v := by
  simp [get?, set, lookupL_setL]

theorem get?_set (d : PyDict κ ν) (k k' : κ) (v : ν) :
    (d.set k v).get? k' = if k = k' then some v else d.get? k' := by
  simp [get?, set, lookupL_setL]

theorem get?_set_ne (d : PyDict κ ν) {k k' : κ} (v : ν) (h : k ≠ k') :
    (d.set k v).get? k' = d.get? k' := by
  simp [get?_set, h]

theorem get?_erase (d : PyDict κ ν) (k k' : κ) :
    (d.erase k).get? k' = if k = k' then none else d.get? k' := by
  obtain ⟨l⟩ := d
  simp only [get?, erase, ne_eq, decide_not]
  induction l with
  | nil => simp [lookupL]
  | cons p r ih =>
    obtain ⟨a, b⟩ := p
    by_cases h : a = k
    · subst h
      by_cases h2 : a = k'
      · simp [h2] at ih ⊢; exact ih
      · simp only [h2, if_false] at ih ⊢
        simp [lookupL, h2, ih]
    · by_cases h2 : a = k'
      · have : ¬ k = k' := fun e => h (h2.trans e.symm)
        subst h2
        simp [lookupL, h, this]
      · simp [h, lookupL, h2, ih]

theorem mem_keys_iff (d : PyDict κ ν) (k : κ) : k ∈ d.keys ↔ ∃ v, d.get? k = some v := by
  obtain ⟨l⟩ := d
  simp only [keys, get?]
  induction l with
  | nil => simp [lookupL]
  | cons p r ih =>
    obtain ⟨a, b⟩ := p
    by_cases h : a = k
    · simp [lookupL, h]
    · have h' : ¬ k = a := fun e => h e.symm
      simp only [List.map_cons, List.mem_cons, h', false_or, ih, lookupL, h, if_false]

theorem contains_iff (d : PyDict κ ν) (k : κ) : d.contains k = true ↔ k ∈ d.keys := by
  rw [mem_keys_iff, contains, Option.isSome_iff_exists]

theorem keys_set_of_mem (d : PyDict κ ν) (k : κ) (v : ν) (h : k ∈ d.keys) :
    (d.set k v).keys = d.keys := by
  obtain ⟨l⟩ := d
  simp only [keys, set] at h ⊢
  induction l with
  | nil => simp at h
  | cons p r ih =>
    obtain ⟨a, b⟩ := p
    by_cases h2 : a = k
    · simp [setL, h2]
    · have h3 : k ∈ r.map Prod.fst := by
        rcases List.mem_cons.mp h with h4 | h4
        · exact absurd h4.symm h2
        · exact h4
      simp [setL, h2, ih h3]

theorem keys_set_of_not_mem (d : PyDict κ ν) (k : κ) (v : ν) (h : k ∉ d.keys) :
    (d.set k v).keys = d.keys ++ [k] := by
  obtain ⟨l⟩ := d
  simp only [keys, set] at h ⊢
  induction l with
  | nil => simp [setL]
  | cons p r ih =>
    obtain ⟨a, b⟩ := p
    simp only [List.map_cons, List.mem_cons, not_or] at h
    have h2 : ¬ a = k := fun e => h.1 e.symm
    simp [setL, h2, ih h.2]

omit [DecidableEq κ] in
theorem WF_empty : (empty : PyDict κ ν).WF := by simp [WF, keys, empty]

theorem WF_set (d : PyDict κ ν) (k : κ) (v : ν) (h : d.WF) : (d.set k v).WF := by
  unfold WF at *
  by_cases hk : k ∈ d.keys
  · rw [keys_set_of_mem d k v hk]; exact h
  · rw [keys_set_of_not_mem d k v hk]
    refine List.nodup_append.mpr ⟨h, by simp, ?_⟩
    intro a ha b hb e
    simp at hb
    subst hb; subst e
    exact hk ha

/-- Lookup and membership of bindings agree in a dictionary with distinct keys. -/
theorem mem_entries_iff (d : PyDict κ ν) (h : d.WF) (k : κ) (v : ν) :
    (k, v) ∈ d.entries ↔ d.get? k = some v := by
  obtain ⟨l⟩ := d
  simp only [WF, keys, get?] at *
  induction l with
  | nil => simp [lookupL]
  | cons p r ih =>
    obtain ⟨a, b⟩ := p
    simp only [List.map_cons, List.nodup_cons] at h
    have ih := ih h.2
    by_cases h2 : a = k
    · subst h2
      have : (a, v) ∉ r := fun hm => h.1 (List.mem_map.mpr ⟨(a, v), hm, rfl⟩)
      simp [lookupL, this, eq_comm]
    · have h2' : ¬ k = a := fun e => h2 e.symm
      simp [lookupL, h2, h2', ih]

theorem foldl_set_get?_notin (l : List (κ × ν)) (d : PyDict κ ν) (k : κ)
    (h : k ∉ l.map Prod.fst) :
    (l.foldl (fun acc p => acc.set p.1 p.2) d).get? k = d.get? k := by
  induction l generalizing d with
  | nil => rfl
  | cons p r ih =>
    simp only [List.map_cons, List.mem_cons, not_or] at h
    simp only [List.foldl_cons]
    rw [ih _ h.2, get?_set_ne]
    exact fun e => h.1 e.symm

theorem get?_update (d e : PyDict κ ν) (he : e.WF) (k : κ) :
    (d.update e).get? k = (e.get? k).or (d.get? k) := by
  obtain ⟨l⟩ := e
  simp only [update, WF, keys, get?] at *
  induction l generalizing d with
  | nil => simp [lookupL]
  | cons p r ih =>
    obtain ⟨a, b⟩ := p
    simp only [List.map_cons, List.nodup_cons] at he
    simp only [List.foldl_cons]
    by_cases h : a = k
    · subst h
      have := foldl_set_get?_notin r (d.set a b) a he.1
      simp only [get?] at this
      rw [this]
      simp [lookupL, set, lookupL_setL]
    · rw [ih (d.set a b) he.2]
      simp [lookupL, h, set, lookupL_setL]

end PyDict
end Verif
