import Verif.Proofs.Parallel

/-! # C05: parallel and serial execution of a batch -/

namespace Verif.Props
open Verif Verif.Parallel

variable {α β ν : Type}

/-- An order of arrival: every chunk arrives, in any order. -/
def Schedule (c n : Nat) (σ : List Nat) : Prop := σ.Perm (List.range ((n + c - 1) / c))

/-- **C05 (a).** If every job succeeds, the pool returns the results in input order, for every chunk
size and every order in which the workers finish. -/
theorem c05_pool_order (f : α → Except PyErr β) (c : Nat) (hc : 0 < c) (inputs : List α)
    (res : List β) (hres : inputs.map f = res.map .ok) (σ : List Nat)
    (hσ : Schedule c inputs.length σ) : poolMap f c inputs σ = .ok (res.map some) := by
  have hlen : res.length = inputs.length := by
    have := congrArg List.length hres; simpa using this.symm
  have hmem : ∀ i, i ∈ σ ↔ i < numChunks c inputs := by
    intro i; rw [hσ.mem_iff]; simp [numChunks]
  obtain ⟨w, hw, hwl, hg⟩ := fold_arrive_ok f c hc inputs res hres σ (fun i hi => (hmem i).mp hi)
    (List.replicate inputs.length none) (by simp)
  unfold poolMap
  rw [hw]
  congr 1
  apply List.ext_getElem?
  intro j
  rw [hg j, List.getElem?_map]
  by_cases hj : j < inputs.length
  · rw [if_pos]
    rw [hmem]
    unfold numChunks
    rw [Nat.lt_div_iff_mul_lt hc]
    have := Nat.div_mul_le_self j c
    omega
  · rw [List.getElem?_eq_none (by omega : res.length ≤ j)]
    rw [List.getElem?_eq_none (by simp; omega)]; simp

/-- **C05 (b).** The pool raises exactly when the serial run raises, and then raises an exception
that one of the jobs raised. -/
theorem c05_pool_raises_iff (f : α → Except PyErr (List (Cell ν))) (c : Nat) (hc : 0 < c)
    (inputs : List α) (σ : List Nat) (hσ : Schedule c inputs.length σ) :
    ((∃ e, poolJob true f c inputs σ = .error e) ↔ (∃ e, serialJob f inputs = .error e)) ∧
    (∀ e, poolJob true f c inputs σ = .error e → ∃ x ∈ inputs, f x = .error e) := by
  have hmem : ∀ i, i ∈ σ ↔ i < numChunks c inputs := by
    intro i; rw [hσ.mem_iff]; simp [numChunks]
  cases hr : runChunk f inputs with
  | ok res =>
    have h := c05_pool_order f c hc inputs res ((runChunk_ok _ _ _).mp hr) σ hσ
    have h2 : poolJob true f c inputs σ = .ok (zipStar res) := by
      simp [poolJob, h, List.filterMap_map]
    simp [h2, serialJob, hr]
  | error e =>
    obtain ⟨x, hx, hfx⟩ := runChunk_error f inputs e hr
    obtain ⟨i, hi, hxi⟩ := mem_chunk c hc inputs x hx
    obtain ⟨e1, he1⟩ := runChunk_of_bad f _ x hxi e hfx
    obtain ⟨e2, he2⟩ := fold_arrive_bad f c inputs σ (.ok (List.replicate inputs.length none)) i
      ((hmem i).mpr hi) e1 he1
    have hp : poolJob true f c inputs σ = .error e2 := by
      simp [poolJob, poolMap, he2]
    refine ⟨by simp [hp, serialJob, hr], ?_⟩
    intro e' he'
    rw [hp] at he'; cases he'
    obtain ⟨j, _, hj⟩ := fold_arrive_error_from f c inputs σ _ _ he2
    obtain ⟨y, hy, hfy⟩ := runChunk_error f _ _ hj
    exact ⟨y, chunk_sub c inputs j y hy, hfy⟩

/-- All cells of all rows are arrays of one common length. -/
def AllVectors (rows : List (List (Cell ν))) : Prop :=
  ∃ m, ∀ r ∈ rows, ∀ c ∈ r, c.vecLen? = some m

theorem c05_zip_rect (rows : List (List (Cell ν))) (k : Nat) (hk : ∀ r ∈ rows, r.length = k)
    (hne : rows ≠ []) : zipStar rows = (List.range k).map (column rows) := by
  unfold zipStar
  have : (rows.map List.length).min? = some k := by
    rw [List.min?_eq_some_iff]
    constructor
    · obtain ⟨r, hr⟩ := List.exists_mem_of_ne_nil _ hne
      exact List.mem_map.mpr ⟨r, hr, hk r hr⟩
    · intro b hb
      obtain ⟨r, hr, rfl⟩ := List.mem_map.mp hb
      exact Nat.le_of_eq (hk r hr).symm
  rw [this]

/-- **C05 (c), partial.** If every job returns the same number of quantities and not all of these
are arrays of one common length, pool and serial run give the same columns, for every chunk size
and every order of arrival.  Missing: batches in which every quantity is an array of one common
length (`c05_violated_all_vectors`). -/
theorem c05_pool_eq_serial_partial (f : α → Except PyErr (List (Cell ν))) (c : Nat) (hc : 0 < c)
    (inputs : List α) (σ : List Nat) (hσ : Schedule c inputs.length σ) (k : Nat)
    (rows : List (List (Cell ν))) (hrows : inputs.map f = rows.map .ok)
    (hk : ∀ r ∈ rows, r.length = k) (hmix : k = 0 ∨ rows = [] ∨ ¬ AllVectors rows) :
    poolJob true f c inputs σ = serialJob f inputs := by
  have h := c05_pool_order f c hc inputs rows hrows σ hσ
  have h1 : poolJob true f c inputs σ = .ok (zipStar rows) := by
    simp [poolJob, h, List.filterMap_map]
  have h2 : serialJob f inputs = .ok (npTranspose rows) := by
    simp [serialJob, (runChunk_ok _ _ _).mpr hrows]
  rw [h1, h2]
  congr 1
  match rows, hk, hmix with
  | [], _, _ => rfl
  | r :: rs, hk, hmix =>
    rw [c05_zip_rect _ k hk (by simp)]
    have hr : r.length = k := hk r (by simp)
    simp only [npTranspose]
    rw [if_pos (by intro r' hr'; rw [hk r' hr', hr])]
    match r, hr, hk, hmix with
    | [], hr, _, _ => subst hr; rfl
    | c0 :: cs, hr, hk, hmix =>
      simp only
      split
      · rename_i m hm
        rw [if_neg]
        · rw [hr]
        · intro hall
          rcases hmix with h0 | h0 | h0
          · subst h0; simp at hr
          · cases h0
          · exact h0 ⟨m, hall⟩
      · rw [hr]

/-- **C05 (d).** The pool returns one column for each quantity, and entry `i` of column `b` is quantity `b`
returned by the job for input `i`. -/
theorem c05_columns (f : α → Except PyErr (List (Cell ν))) (c : Nat) (hc : 0 < c)
    (inputs : List α) (σ : List Nat) (hσ : Schedule c inputs.length σ) (k : Nat) (hne : inputs ≠ [])
    (rows : List (List (Cell ν))) (hrows : inputs.map f = rows.map .ok)
    (hk : ∀ r ∈ rows, r.length = k) :
    ∃ cols, poolJob true f c inputs σ = .ok cols ∧ cols.length = k ∧
      ∀ (b i : Nat) (col : List (Cell ν)) (r : List (Cell ν)), cols[b]? = some col → rows[i]? = some r →
        col.length = inputs.length ∧ col[i]? = r[b]? := by
  have h := c05_pool_order f c hc inputs rows hrows σ hσ
  have hlen : rows.length = inputs.length := by
    have := congrArg List.length hrows; simpa using this.symm
  have hne' : rows ≠ [] := by
    intro hcon; rw [hcon] at hlen; exact hne (List.length_eq_zero_iff.mp hlen.symm)
  have h1 : poolJob true f c inputs σ = .ok (zipStar rows) := by
    simp [poolJob, h, List.filterMap_map]
  rw [c05_zip_rect rows k hk hne'] at h1
  refine ⟨_, h1, by simp, ?_⟩
  intro b i col r hcol hr
  have hb : b < k := by
    by_contra hcon
    rw [List.getElem?_eq_none (by simp; omega)] at hcol; cases hcol
  rw [List.getElem?_map, List.getElem?_range hb] at hcol
  simp only [Option.map_some, Option.some.injEq] at hcol
  subst hcol
  have main : ∀ rows : List (List (Cell ν)), (∀ r ∈ rows, r.length = k) →
      (column rows b).length = rows.length ∧ ∀ (i : Nat) (r : List (Cell ν)), rows[i]? = some r →
        (column rows b)[i]? = r[b]? := by
    intro rows
    induction rows with
    | nil => intro _; simp [column]
    | cons s rows ih =>
      intro hk
      have hs : b < s.length := by rw [hk s (by simp)]; exact hb
      have e : column (s :: rows) b = s[b] :: column rows b := by
        simp [column, List.getElem?_eq_getElem hs]
      obtain ⟨i1, i2⟩ := ih (fun r hr => hk r (List.mem_cons_of_mem _ hr))
      rw [e]
      refine ⟨by simp [i1], ?_⟩
      intro i r hr
      cases i with
      | zero =>
        simp only [List.getElem?_cons_zero, Option.some.injEq] at hr
        subst hr
        rw [List.getElem?_cons_zero, List.getElem?_eq_getElem hs]
      | succ i => simp only [List.getElem?_cons_succ] at hr ⊢; exact i2 i r hr
  obtain ⟨m1, m2⟩ := main rows hk
  exact ⟨by rw [m1, hlen], m2 i r hr⟩

/-- **C05, violated.** If every quantity of every job is an array of one common length, the serial
run returns a three-dimensional transpose whose columns are not those of the pool: here two points,
two quantities of three components each. -/
theorem c05_violated_all_vectors :
    ∃ f : Nat → Except PyErr (List (Cell Int)),
      poolJob true f 1 [0, 1] [0, 1] = .ok [[.vec [1, 2, 3], .vec [7, 8, 9]],
        [.vec [4, 5, 6], .vec [10, 11, 12]]] ∧
      serialJob f [0, 1] = .ok [[.vec [1, 7], .vec [4, 10]], [.vec [2, 8], .vec [5, 11]],
        [.vec [3, 9], .vec [6, 12]]] := by
  refine ⟨fun i => .ok (if i = 0 then [.vec [1, 2, 3], .vec [4, 5, 6]]
    else [.vec [7, 8, 9], .vec [10, 11, 12]]), ?_, ?_⟩ <;> decide

/-- **C05, violated.** If the jobs return different numbers of quantities, the pool drops the surplus ones and the serial
run returns the results job by job. -/
theorem c05_violated_ragged :
    ∃ f : Nat → Except PyErr (List (Cell Int)),
      poolJob true f 1 [0, 1] [0, 1] = .ok [[.scal 1, .scal 2]] ∧
      serialJob f [0, 1] = .ok [[.scal 1], [.scal 2, .scal 3]] := by
  refine ⟨fun i => .ok (if i = 0 then [.scal 1] else [.scal 2, .scal 3]), ?_, ?_⟩ <;> decide

/-- Which exception is reported by the pool does depend on the order of arrival. -/
theorem c05_violated_exception_order :
    ∃ f : Nat → Except PyErr (List (Cell Int)),
      poolJob true f 1 [0, 1] [0, 1] = .error .valueError ∧
      poolJob true f 1 [0, 1] [1, 0] = .error .typeError ∧
      serialJob f [0, 1] = .error .valueError := by
  refine ⟨fun i => .error (if i = 0 then .valueError else .typeError), ?_, ?_, ?_⟩ <;> decide

/-- The number of cores: `-1` means all, `1` means serial, other positive numbers are used as given,
and zero or other negative numbers are rejected. -/
theorem c05_cores (cpu : Nat) (n : Int) :
    initCores cpu n =
      if n = -1 then .ok (cpu, true) else if n ≤ 0 then .error .valueError
      else .ok (n.toNat, decide (n ≠ 1)) := by
  unfold initCores
  by_cases h1 : n = -1
  · simp [h1]
  · by_cases h2 : n > 1
    · have : ¬ n ≤ 0 := by omega
      have : n ≠ 1 := by omega
      simp [*]
    · by_cases h3 : n = 1
      · subst h3; simp
      · have : n ≤ 0 := by omega
        simp [*]

example : poolJob true (fun i : Nat => .ok [.scal (i : Int), .vec [0, i]]) 2 [5, 6, 7] [1, 0]
    = .ok [[.scal 5, .scal 6, .scal 7], [.vec [0, 5], .vec [0, 6], .vec [0, 7]]] := by decide
example : Schedule 2 3 [1, 0] := by unfold Schedule; decide

end Verif.Props
