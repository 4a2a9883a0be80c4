import Verif.Model.FitInput

/-! # C44: constraints of the optimisation, C79: tables of predictions -/

namespace Verif.Props
open Verif Verif.FitInput

variable {α : Type}

/-! ## C44 -/

/-- **C44, violated.** No constraint is ever accepted as a class: the documented types `linear` and
`nonlinear` are rejected, others have no value to give. -/
theorem c44_violated_class (known : Str → Bool) (c : Constraint α) (cs : List (Constraint α)) :
    ∃ e, initConstraints known "class".toList (c :: cs) = .error e := by
  unfold initConstraints
  simp only [initLoop]
  have h : ∃ e, initOne known "class".toList none c = .error e := by
    unfold initOne
    cases commonChecks known c with
    | error e => exact ⟨e, rfl⟩
    | ok fa =>
      simp only [if_true]
      cases c.type with
      | none => exact ⟨_, rfl⟩
      | some t =>
        simp only
        by_cases h1 : t = tLinear ∨ t = tNonlinear
        · rw [if_pos h1]; exact ⟨_, rfl⟩
        · rw [if_neg h1, if_neg (fun h => h1 (Or.inl h)), if_neg (fun h => h1 (Or.inr h))]
          exact ⟨_, rfl⟩
  obtain ⟨e, he⟩ := h
  rw [he]
  exact ⟨e, rfl⟩

/-- **C44, violated.** As dictionaries exactly the undocumented types are accepted. -/
theorem c44_violated_dict (known : Str → Bool) (f t : Str) (a : α) (hf : known f = true) :
    (∃ r, initConstraints known "dict".toList [⟨some f, some t, some a⟩] = .ok r) ↔
      t ≠ "eq".toList ∧ t ≠ "ineq".toList := by
  have hk : ¬ ("dict".toList = "class".toList) := by decide +kernel
  have hc : commonChecks known (⟨some f, some t, some a⟩ : Constraint α) = .ok (f, a) := by
    unfold commonChecks; simp [hf]
  unfold initConstraints
  simp only [initLoop, initOne, hc, if_neg hk, if_true]
  by_cases h : t = tEq ∨ t = tIneq
  · rw [if_pos h]
    constructor
    · rintro ⟨r, hr⟩; cases hr
    · rintro ⟨h1, h2⟩
      exact absurd h (by rintro (h | h); exact h1 h; exact h2 h)
  · rw [if_neg h]
    constructor
    · intro _; exact ⟨fun h1 => h (Or.inl h1), fun h1 => h (Or.inr h1)⟩
    · intro _; exact ⟨_, rfl⟩

/-- The documented types, for a known function and given arguments, are all rejected. -/
example : initConstraints (fun s => s = "type1".toList) "dict".toList
      [⟨some "type1".toList, some "eq".toList, some 1⟩] = .error .valueError ∧
    initConstraints (fun s => s = "type1".toList) "dict".toList
      [⟨some "type1".toList, some "nonsense".toList, some 1⟩] =
      .ok [.dict "nonsense".toList "type1".toList 1] := by decide +kernel

/-- **C44 (partial).** What holds: an unknown kind, a constraint without function, with an unknown
function, without arguments or without type is rejected. -/
theorem c44_rejects_partial (known : Str → Bool) (kind : Str) (cs : List (Constraint α))
    (r : List (Output α)) (h : initConstraints known kind cs = .ok r) (c : Constraint α) (hc : c ∈ cs) :
    (kind = "class".toList ∨ kind = "dict".toList) ∧ c.type ≠ none ∧ c.args ≠ none ∧
      ∃ f, c.fn = some f ∧ known f = true := by
  have main : ∀ (prev : Option (Output α)) (o : Output α), initOne known kind prev c = .ok o →
      (kind = "class".toList ∨ kind = "dict".toList) ∧ c.type ≠ none ∧ c.args ≠ none ∧
        ∃ f, c.fn = some f ∧ known f = true := by
    intro prev o ho
    unfold initOne at ho
    cases hcc : commonChecks known c with
    | error e => rw [hcc] at ho; simp at ho
    | ok fa =>
      rw [hcc] at ho
      simp only at ho
      have hfn : c.args ≠ none ∧ ∃ f, c.fn = some f ∧ known f = true := by
        unfold commonChecks at hcc
        cases hf : c.fn with
        | none => rw [hf] at hcc; simp at hcc
        | some f =>
          rw [hf] at hcc
          simp only at hcc
          by_cases hk : known f = false
          · rw [if_pos hk] at hcc; cases hcc
          · rw [if_neg hk] at hcc
            cases ha : c.args with
            | none => rw [ha] at hcc; simp at hcc
            | some a => exact ⟨by simp, f, rfl, by simpa using hk⟩
      by_cases h1 : kind = "class".toList
      · refine ⟨Or.inl h1, ?_, hfn⟩
        rw [if_pos h1] at ho
        intro ht; rw [ht] at ho; simp at ho
      · rw [if_neg h1] at ho
        by_cases h2 : kind = "dict".toList
        · refine ⟨Or.inr h2, ?_, hfn⟩
          rw [if_pos h2] at ho
          intro ht; rw [ht] at ho; simp at ho
        · rw [if_neg h2] at ho; cases ho
  have loop : ∀ (l : List (Constraint α)) (prev : Option (Output α)) (r : List (Output α)),
      initLoop known kind prev l = .ok r → c ∈ l → ∃ prev' o, initOne known kind prev' c = .ok o := by
    intro l
    induction l with
    | nil => intro _ _ _ hm; simp at hm
    | cons d ds ih =>
      intro prev r hr hm
      simp only [initLoop] at hr
      cases hd : initOne known kind prev d with
      | error e => rw [hd] at hr; simp at hr
      | ok o =>
        rw [hd] at hr
        simp only at hr
        rcases List.mem_cons.mp hm with h1 | h1
        · subst h1; exact ⟨prev, o, hd⟩
        · cases hrest : initLoop known kind (some o) ds with
          | error e => rw [hrest] at hr; simp at hr
          | ok rs => exact ih (some o) rs hrest h1
  obtain ⟨prev', o, ho⟩ := loop cs none r h hc
  exact main prev' o ho

/-! ## C79 -/

/-- Specification: the number for component `j` at state `i`. -/
def entryAt : Col α → Nat → Nat → Option α
  | .scalars l, j, i => if j = 0 then l[i]? else none
  | .rows l, j, i => (l[i]?).bind (fun r => r[j]?)

/-- Specification: an entry for `n` states with `w` numbers for each. -/
def TableShape (n w : Nat) : Col α → Prop
  | .scalars l => l.length = n ∧ w = 1
  | .rows l => l.length = n ∧ ∀ r ∈ l, r.length = w

theorem c79_fillRows (w : Nat) (l : List (List α)) (h : ∀ r ∈ l, r.length = w) :
    fillRows w l = .ok l := by
  induction l with
  | nil => rfl
  | cons r rs ih =>
    have h1 : bcast w r = .ok r := by unfold bcast; rw [if_pos (h r (List.mem_cons_self ..))]
    simp only [fillRows, h1, ih (fun q hq => h q (List.mem_cons_of_mem _ hq))]

theorem c79_column (w : Nat) (l : List (List α)) (h : ∀ r ∈ l, r.length = w) (j : Nat) (hj : j < w) :
    (column j l).length = l.length ∧ ∀ i : Nat, (column j l)[i]? = (l[i]?).bind (fun r => r[j]?) := by
  induction l with
  | nil => exact ⟨rfl, fun i => by simp [column]⟩
  | cons r rs ih =>
    obtain ⟨h1, h2⟩ := ih (fun q hq => h q (List.mem_cons_of_mem _ hq))
    have hr : r.length = w := h r (List.mem_cons_self ..)
    have h3 : r[j]? = some (r[j]'(by omega)) := List.getElem?_eq_getElem (by omega)
    have h4 : column j (r :: rs) = r[j]'(by omega) :: column j rs := by
      simp [column, h3]
    rw [h4]
    refine ⟨by simp [h1], ?_⟩
    intro i
    cases i with
    | zero => simp [h3]
    | succ i => simpa using h2 i

theorem c79_columns (n w : Nat) (l : List (List α)) (hl : l.length = n) (h : ∀ r ∈ l, r.length = w)
    (js : List Nat) (hjs : ∀ j ∈ js, j < w) :
    columns n l js = .ok (js.map (fun j => column j l)) := by
  induction js with
  | nil => rfl
  | cons j js ih =>
    obtain ⟨h1, _⟩ := c79_column w l h j (hjs j (List.mem_cons_self ..))
    have h2 : bcast n (column j l) = .ok (column j l) := by
      unfold bcast; rw [if_pos (by rw [h1, hl])]
    simp only [columns, h2, ih (fun q hq => hjs q (List.mem_cons_of_mem _ hq)), List.map_cons]

theorem c79_toColumns (n w : Nat) (hn : 0 < n) (c : Col α) (hc : TableShape n w c) :
    ∃ m, c.toColumns n = .ok m ∧ m.length = w ∧ ∀ j i : Nat, j < w →
      (m[j]?).bind (fun col => col[i]?) = entryAt c j i := by
  cases c with
  | scalars l =>
    obtain ⟨h1, h2⟩ := hc
    subst h2
    have hb : bcast n l = .ok l := by unfold bcast; rw [if_pos h1]
    refine ⟨[l], by simp only [Col.toColumns, hb], rfl, ?_⟩
    intro j i hj
    have : j = 0 := by omega
    subst this
    simp [entryAt]
  | rows l =>
    obtain ⟨h1, h2⟩ := hc
    cases l with
    | nil => simp at h1; omega
    | cons r rs =>
      have hw : r.length = w := h2 r (List.mem_cons_self ..)
      refine ⟨(List.range w).map (fun j => column j (r :: rs)), ?_, by simp, ?_⟩
      · simp only [Col.toColumns, hw]
        rw [c79_fillRows w _ h2]
        exact c79_columns n w _ h1 h2 _ (fun j hj => List.mem_range.mp hj)
      · intro j i hj
        rw [List.getElem?_map, List.getElem?_range hj]
        simp only [Option.map_some, Option.bind_some, entryAt]
        exact (c79_column w _ h2 j hj).2 i

theorem c79_allColumns (n : Nat) (hn : 0 < n) (cs : List (Col α)) (ws : List Nat)
    (hl : ws.length = cs.length)
    (hc : ∀ (k : Nat) (h : k < cs.length), TableShape n (ws[k]'(by omega)) cs[k]) :
    ∃ m, allColumns n cs = .ok m ∧ m.length = ws.sum ∧ ∀ (k : Nat) (h : k < cs.length) (j i : Nat),
      j < ws[k]'(by omega) →
      (m[(ws.take k).sum + j]?).bind (fun col => col[i]?) = entryAt cs[k] j i := by
  induction cs generalizing ws with
  | nil =>
    have : ws = [] := List.length_eq_zero_iff.mp (by simpa using hl)
    subst this
    exact ⟨[], rfl, rfl, fun k h => absurd h (by simp)⟩
  | cons c cs ih =>
    cases ws with
    | nil => simp at hl
    | cons w ws =>
      simp only [List.length_cons, Nat.add_right_cancel_iff] at hl
      obtain ⟨a, ha1, ha2, ha3⟩ := c79_toColumns n w hn c (hc 0 (by simp))
      obtain ⟨b, hb1, hb2, hb3⟩ := ih ws hl (fun k h => by
        have := hc (k + 1) (by simpa using h)
        simpa using this)
      refine ⟨a ++ b, by simp only [allColumns, ha1, hb1], by simp [ha2, hb2], ?_⟩
      intro k h j i hj
      cases k with
      | zero =>
        simp only [List.take_zero, List.sum_nil, Nat.zero_add, List.getElem_cons_zero] at hj ⊢
        rw [List.getElem?_append_left (by omega)]
        exact ha3 j i hj
      | succ k =>
        simp only [List.take_succ_cons, List.sum_cons, List.getElem_cons_succ] at hj ⊢
        rw [List.getElem?_append_right (by omega)]
        have : w + (ws.take k).sum + j - a.length = (ws.take k).sum + j := by omega
        rw [this]
        exact hb3 k (by simpa using h) j i hj

theorem c79_widths (n : Nat) (hn : 0 < n) (cs : List (Col α)) (ws : List Nat) (hl : ws.length = cs.length)
    (hc : ∀ (k : Nat) (h : k < cs.length), TableShape n (ws[k]'(by omega)) cs[k]) : widths cs = .ok ws := by
  induction cs generalizing ws with
  | nil =>
    have : ws = [] := List.length_eq_zero_iff.mp (by simpa using hl)
    subst this; rfl
  | cons c cs ih =>
    cases ws with
    | nil => simp at hl
    | cons w ws =>
      simp only [List.length_cons, Nat.add_right_cancel_iff] at hl
      have h0 : TableShape n w c := hc 0 (by simp)
      have hw : c.width = .ok w := by
        cases c with
        | scalars l =>
          obtain ⟨h1, rfl⟩ := h0
          cases l with
          | nil => simp at h1; omega
          | cons => rfl
        | rows l =>
          obtain ⟨h1, h2⟩ := h0
          cases l with
          | nil => simp at h1; omega
          | cons r rs => simp only [Col.width, h2 r (List.mem_cons_self ..)]
      have ht := ih ws hl (fun k h => by
        have := hc (k + 1) (by simpa using h)
        simpa using this)
      simp only [widths, hw, ht]

/-- An entry without states. -/
theorem c79_no_width (cs : List (Col α)) (c : Col α) (hc : c ∈ cs) (h0 : c.points = 0) :
    widths cs = .error .indexError := by
  have hi : ∀ (d : Col α) (e : PyErr), d.width = .error e → e = .indexError := by
    intro d e h
    match d with
    | .scalars [] | .rows [] => simp only [Col.width, Except.error.injEq] at h; exact h.symm
    | .scalars (_ :: _) | .rows (_ :: _) => simp [Col.width] at h
  induction cs with
  | nil => cases hc
  | cons d ds ih =>
    simp only [widths]
    cases hd : d.width with
    | error e => rw [hi d e hd]
    | ok w =>
      have hne : c ≠ d := by
        rintro rfl
        match c with
        | .scalars [] | .rows [] => simp [Col.width] at hd
        | .scalars (_ :: _) | .rows (_ :: _) => simp [Col.points] at h0
      rw [ih ((List.mem_cons.mp hc).resolve_left hne)]

/-- **C79.** In the table of predictions every number stands where the objective function looks for it: the
columns of an entry follow those of the entries before it, one for each component in order, and each
holds the states in order. -/
theorem c79_table (n : Nat) (hn : 0 < n) (cs : List (Col α)) (hne : cs ≠ []) (ws : List Nat)
    (hl : ws.length = cs.length)
    (hc : ∀ (k : Nat) (h : k < cs.length), TableShape n (ws[k]'(by omega)) cs[k]) :
    ∃ m, reformat cs = .ok m ∧ m.length = ws.sum ∧ ∀ (k : Nat) (h : k < cs.length) (j i : Nat),
      j < ws[k]'(by omega) →
      (m[(ws.take k).sum + j]?).bind (fun col => col[i]?) = entryAt cs[k] j i := by
  cases cs with
  | nil => exact absurd rfl hne
  | cons c cs =>
    have hp : c.points = n := by
      have := hc 0 (by simp)
      cases c with
      | scalars l => exact this.1
      | rows l => exact this.1
    simp only [reformat, c79_widths n hn (c :: cs) ws hl hc, hp]
    exact c79_allColumns n hn (c :: cs) ws hl hc

/-- Pressures and vapour compositions of a binary mixture at three states. -/
example : reformat [.scalars [1, 2, 3], .rows [[10, 11], [20, 21], [30, 31]]] =
    .ok [[1, 2, 3], [10, 20, 30], [11, 21, 31]] := by decide +kernel

/-- **C79, ragged outputs.** An entry with another number of states than the first one, unless it is a single number,
makes the whole table fail. -/
theorem c79_ragged (cs : List (Col α)) (c : Col α) (l : List α) (hl : Col.scalars l ∈ cs) (h1 : l.length ≠ 1)
    (hn : l.length ≠ c.points) : ∃ e, reformat (c :: cs) = .error e := by
  have key : ∀ (n : Nat) (cs : List (Col α)), l.length ≠ n → Col.scalars l ∈ cs → ∃ e, allColumns n cs = .error e := by
    intro n cs hne
    induction cs with
    | nil => intro h; cases h
    | cons d ds ih =>
      intro h
      simp only [allColumns]
      rcases List.mem_cons.mp h with rfl | h
      · have : bcast n l = .error .valueError := by
          unfold bcast
          rw [if_neg hne]
          cases l with
          | nil => rfl
          | cons a l => cases l with
            | nil => exact absurd rfl h1
            | cons => rfl
        exact ⟨_, by simp only [Col.toColumns, this]; rfl⟩
      · obtain ⟨e, he⟩ := ih h
        cases d.toColumns n with
        | error e' => exact ⟨e', rfl⟩
        | ok a => exact ⟨e, by simp only [he]⟩
  simp only [reformat]
  cases widths (c :: cs) with
  | error e => exact ⟨e, rfl⟩
  | ok ws => exact key c.points (c :: cs) hn (List.mem_cons_of_mem _ hl)

/-- A single number is repeated for all states. -/
example : reformat [.scalars [1, 2], .scalars [5]] = .ok [[1, 2], [5, 5]] ∧
    reformat [.scalars [1, 2], .scalars [5, 6, 7]] = .error .valueError := by decide +kernel

/-- **C79 (partial), both results.** For two outputs or more the table is accompanied by the number of columns of each. -/
theorem c79_several_partial (n : Nat) (hn : 0 < n) (cs : List (Col α)) (h2 : 2 ≤ cs.length) (ws : List Nat)
    (hl : ws.length = cs.length)
    (hc : ∀ (k : Nat) (h : k < cs.length), TableShape n (ws[k]'(by omega)) cs[k]) :
    ∃ m, reformatOutput cs = .ok (.columns m, ws) ∧ m.length = ws.sum ∧ ∀ (k : Nat) (h : k < cs.length) (j i : Nat),
      j < ws[k]'(by omega) →
      (m[(ws.take k).sum + j]?).bind (fun col => col[i]?) = entryAt cs[k] j i := by
  have hne : cs ≠ [] := by rintro rfl; simp at h2
  obtain ⟨m, h3, h4⟩ := c79_table n hn cs hne ws hl hc
  refine ⟨m, ?_, h4⟩
  have hw := c79_widths n hn cs ws hl hc
  match cs, h2 with
  | c :: d :: cs, _ => simp only [reformatOutput, hw, h3]

/-- Pressures and vapour compositions of a binary mixture at three states. -/
example : reformatOutput [.scalars [1, 2, 3], .rows [[10, 11], [20, 21], [30, 31]]] =
    .ok (.columns [[1, 2, 3], [10, 20, 30], [11, 21, 31]], [1, 2]) := by decide +kernel

/-- **C79 (partial), nothing to tabulate.** Without outputs, or with an output without states beside another, there is no
table but an error of an index. -/
theorem c79_nothing_partial :
    reformatOutput ([] : List (Col α)) = .error .indexError ∧
    ∀ (cs : List (Col α)) (c : Col α), 2 ≤ cs.length → c ∈ cs → c.points = 0 →
      reformatOutput cs = .error .indexError := by
  refine ⟨rfl, ?_⟩
  intro cs c h2 hc h0
  have hw := c79_no_width cs c hc h0
  match cs, h2 with
  | c :: d :: cs, _ => simp only [reformatOutput, hw]

/-- An output of two states beside one of none. -/
example : reformatOutput [.scalars [1, 2], .scalars []] = .error .indexError := by decide +kernel

/-- **C79, violated for a single output.** The table of a single output is read the other way round: line `j` holds the numbers
of state `j` where those of component `j` should be; and with it comes the number of states where the number of columns should be,
for numbers as well as for compositions.  No class of data has a single output of compositions. -/
theorem c79_violated_one (l : List (List α)) (w : Nat) (hne : l ≠ []) (hw : ∀ r ∈ l, r.length = w) (v : List α) :
    reformatOutput [.scalars v] = .ok (.vector v, [v.length]) ∧
    ∃ m, reformatOutput [.rows l] = .ok (.columns m, [l.length]) ∧
      ∀ j i : Nat, (m[j]?).bind (fun col => col[i]?) = entryAt (.rows l) i j := by
  refine ⟨rfl, l, ?_, fun j i => rfl⟩
  cases l with
  | nil => exact absurd rfl hne
  | cons r rs =>
    have h : rs.all (fun q => decide (q.length = r.length)) = true := by
      rw [List.all_eq_true]
      intro q hq
      rw [decide_eq_true_eq, hw q (List.mem_cons_of_mem _ hq), hw r (List.mem_cons_self ..)]
    simp only [reformatOutput, h, if_true, List.length_cons]

/-- **C79 (partial), uneven compositions.** A single output with compositions of different lengths is refused. -/
theorem c79_uneven (l : List (List α)) (q r : List α) (hq : q ∈ l) (hr : r ∈ l) (h : q.length ≠ r.length) :
    reformatOutput [.rows l] = .error .valueError := by
  cases l with
  | nil => cases hq
  | cons a l =>
    have hb : ¬ l.all (fun q => decide (q.length = a.length)) = true := by
      intro hall
      rw [List.all_eq_true] at hall
      have key : ∀ c ∈ a :: l, c.length = a.length := by
        intro c hc
        rcases List.mem_cons.1 hc with rfl | hc
        · rfl
        · exact of_decide_eq_true (hall c hc)
      exact h ((key q hq).trans (key r hr).symm)
    simp only [reformatOutput, if_neg hb]

/-- The compositions at three states, alone and beside the pressures: the first line holds a state, or a component. -/
example : reformatOutput [.rows [[10, 11], [20, 21], [30, 31]]] = .ok (.columns [[10, 11], [20, 21], [30, 31]], [3]) ∧
    reformatOutput [.rows [[10, 11], [20]]] = .error .valueError := by decide +kernel

/-- **C44, violated, by name.** The class constraints called "linear" and "nonlinear" are refused for their value; any other
name, after the checks, fails for want of a result.  The dictionary types "eq" and "ineq" are refused. -/
theorem c44_violated_names (known : Str → Bool) (f : Str) (a : α) (hf : known f = true) (cs : List (Constraint α)) :
    (∀ t, t = "linear".toList ∨ t = "nonlinear".toList →
      initConstraints known "class".toList (⟨some f, some t, some a⟩ :: cs) = .error .valueError) ∧
    (∀ t, t ≠ "linear".toList → t ≠ "nonlinear".toList →
      initConstraints known "class".toList (⟨some f, some t, some a⟩ :: cs) = .error .unboundLocal) ∧
    (∀ t, t = "eq".toList ∨ t = "ineq".toList →
      initConstraints known "dict".toList (⟨some f, some t, some a⟩ :: cs) = .error .valueError) := by
  have hc : ∀ t, commonChecks known (⟨some f, some t, some a⟩ : Constraint α) = .ok (f, a) := by
    intro t; unfold commonChecks; simp [hf]
  have hk : ¬ ("dict".toList = "class".toList) := by decide +kernel
  refine ⟨?_, ?_, ?_⟩
  · intro t ht
    have ht' : t = tLinear ∨ t = tNonlinear := ht
    simp only [initConstraints, initLoop, initOne, hc, if_true, if_pos ht']
  · intro t h1 h2
    have h1' : ¬ t = tLinear := h1
    have h2' : ¬ t = tNonlinear := h2
    have h3 : ¬ (t = tLinear ∨ t = tNonlinear) := by rintro (h | h); exact h1' h; exact h2' h
    simp only [initConstraints, initLoop, initOne, hc, if_true, if_neg h1', if_neg h2', if_neg h3]
  · intro t ht
    have ht' : t = tEq ∨ t = tIneq := ht
    simp only [initConstraints, initLoop, initOne, hc, if_neg hk, if_true, if_pos ht']

/-- **C44 (partial), errors.** The first constraint with a function that does not exist gives the error of an import;
without a function or arguments it is an error of a value. -/
theorem c44_errors_partial (known : Str → Bool) (kind : Str) (f : Str) (t : Option Str) (a : Option α)
    (cs : List (Constraint α)) :
    (known f = false → initConstraints known kind (⟨some f, t, a⟩ :: cs) = .error .importError) ∧
    initConstraints known kind (⟨none, t, a⟩ :: cs) = .error .valueError ∧
    (known f = true → initConstraints known kind (⟨some f, t, none⟩ :: cs) = .error .valueError) := by
  refine ⟨fun h => ?_, ?_, fun h => ?_⟩ <;> simp [initConstraints, initLoop, initOne, commonChecks, *]

end Verif.Props
