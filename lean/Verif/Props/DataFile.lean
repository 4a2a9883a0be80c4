import Mathlib.Data.Int.Notation
import Mathlib.Tactic.ByContra
import Verif.Model.DataFile
import Verif.Model.DataClasses

/-!
# C129, C130: data files, data sets, and files of keys and values
-/

namespace Verif.Props
open Verif Verif.DataFile Verif.Toolbox

variable {α : Type}

/-- The columns whose name begins with the letter. -/
def columnsOf (c : Char) (t : Table α) : List (List α) :=
  (t.filter (fun p => p.1.toList.head? == some c)).map Prod.snd

/-- The name begins with none of the letters of mole fractions. -/
def Plain (k : String) : Prop :=
  k.toList.head? ≠ some 'x' ∧ k.toList.head? ≠ some 'y' ∧ k.toList.head? ≠ some 'z'

theorem startsWith_head (c : Char) (k : String) :
    startsWith c k = (k.toList.head? == some c) := by
  unfold startsWith
  cases k.toList with
  | nil => rfl
  | cons a l =>
    by_cases h : a = c
    · simp [List.isPrefixOf, h]
    · have h' : ¬ c = a := fun e => h e.symm
      have e1 : (c == a) = false := by simpa using h'
      have e2 : (a == c) = false := by simpa using h
      simp [List.isPrefixOf, e1, e2]

private theorem sort_fold (t : Table α) (s : Sorted α) :
    t.foldl sortStep s = ⟨s.xi ++ columnsOf 'x' t, s.yi ++ columnsOf 'y' t, s.zi ++ columnsOf 'z' t,
      s.del ++ (t.filter (fun p => p.1.toList.head? == some 'x' || p.1.toList.head? == some 'y' ||
        p.1.toList.head? == some 'z')).map Prod.fst⟩ := by
  induction t generalizing s with
  | nil => simp [columnsOf]
  | cons p t ih =>
    rw [List.foldl_cons, ih]
    simp only [sortStep, startsWith_head, columnsOf, List.filter_cons, beq_iff_eq]
    by_cases hx : p.1.toList.head? = some 'x'
    · simp [hx]
    · by_cases hy : p.1.toList.head? = some 'y'
      · simp [hy]
      · by_cases hz : p.1.toList.head? = some 'z'
        · simp [hz]
        · simp [hx, hy, hz]

private theorem erase_fold {κ ν : Type} [DecidableEq κ] (l : List κ) (d : PyDict κ ν) (k : κ) :
    (l.foldl (fun acc k => acc.erase k) d).get? k = if k ∈ l then none else d.get? k := by
  induction l generalizing d with
  | nil => simp
  | cons a l ih =>
    rw [List.foldl_cons, ih, PyDict.get?_erase]
    by_cases h : k ∈ l
    · simp [h]
    · by_cases h2 : a = k
      · simp [h2]
      · have : ¬ k = a := fun e => h2 e.symm
        simp [h, h2, this]

private theorem lookup_map (t : Table α) (k : String) :
    PyDict.get? ⟨t.map (fun p => (p.1, field p.2))⟩ k = (PyDict.get? ⟨t⟩ k).map field := by
  simp only [PyDict.get?]
  induction t with
  | nil => rfl
  | cons p t ih =>
    simp only [List.map_cons, PyDict.lookupL]
    split <;> simp_all

private theorem add_get (n : Nat) (name k : String) (cols : List (List α))
    (d : PyDict String (Arg (Cell α))) :
    (addStack n name cols d).get? k =
      if name = k ∧ cols ≠ [] then some (stack n cols) else d.get? k := by
  unfold addStack
  cases cols with
  | nil => simp
  | cons c l => simp [PyDict.get?_set]

private theorem base_get (t : Table α) (k : String) :
    ((sortColumns t).del.foldl (fun acc k => acc.erase k)
      (⟨t.map (fun p => (p.1, field p.2))⟩ : PyDict String (Arg (Cell α)))).get? k =
    if k.toList.head? = some 'x' ∨ k.toList.head? = some 'y' ∨ k.toList.head? = some 'z' then none
    else (PyDict.get? ⟨t⟩ k).map field := by
  rw [erase_fold, lookup_map, sortColumns, sort_fold]
  simp only [List.nil_append]
  by_cases h : k.toList.head? = some 'x' ∨ k.toList.head? = some 'y' ∨ k.toList.head? = some 'z'
  · rw [if_pos h]
    split
    · rfl
    · rename_i hn
      have : PyDict.get? (⟨t⟩ : PyDict String (List α)) k = none := by
        cases hg : PyDict.get? (⟨t⟩ : PyDict String (List α)) k with
        | none => rfl
        | some v =>
          have := (PyDict.mem_keys_iff (⟨t⟩ : PyDict String (List α)) k).2 ⟨v, hg⟩
          obtain ⟨p, hp, e⟩ := List.mem_map.1 this
          exact absurd (List.mem_map.2 ⟨p, List.mem_filter.2 ⟨hp, by rw [e]; rcases h with h | h | h <;> simp [h]⟩, e⟩) hn
      rw [this]; rfl
  · rw [if_neg h, if_neg]
    intro hm
    obtain ⟨p, hp, e⟩ := List.mem_map.1 hm
    have hp := (List.mem_filter.1 hp).2
    rw [e] at hp
    simp only [Bool.or_eq_true, beq_iff_eq] at hp
    exact h (by rcases hp with (hp | hp) | hp <;> simp [hp])

/-- The mole fractions: present exactly when the file has a column beginning with the letter, and then
made of all such columns in the order of the file. -/
theorem c129_fractions (n : Nat) (t : Table α) (c : Char) (name : String)
    (h : (c, name) ∈ [('x', "xi"), ('y', "yi"), ('z', "zi")]) :
    (ofTable n t).get? name =
      if columnsOf c t = [] then none else some (stack n (columnsOf c t)) := by
  unfold ofTable
  simp only [add_get, base_get]
  simp only [sortColumns, sort_fold, List.nil_append]
  simp only [List.mem_cons, Prod.mk.injEq, List.not_mem_nil, or_false] at h
  rcases h with ⟨rfl, rfl⟩ | ⟨rfl, rfl⟩ | ⟨rfl, rfl⟩ <;>
    (split <;> simp_all)

/-- Every other column keeps its name and its values. -/
theorem c129_columns (n : Nat) (t : Table α) (k : String) (h : Plain k) :
    (ofTable n t).get? k = (PyDict.get? ⟨t⟩ k).map field := by
  obtain ⟨hx, hy, hz⟩ := h
  have e1 : ¬ "xi" = k := fun e => hx (by rw [← e]; rfl)
  have e2 : ¬ "yi" = k := fun e => hy (by rw [← e]; rfl)
  have e3 : ¬ "zi" = k := fun e => hz (by rw [← e]; rfl)
  unfold ofTable
  simp only [add_get, base_get]
  simp [e1, e2, e3, hx, hy, hz]

/-- **C129** (values of a column). A column of one number becomes a number, any other column the array of its numbers in order. -/
theorem c129_values (a : α) (l : List α) (h : l.length ≠ 1) : field [a] = .scalar (.num a) ∧ field l = .arr (l.map .num) := by
  refine ⟨rfl, ?_⟩
  match l, h with
  | [], _ => rfl
  | [_], h => exact absurd rfl h
  | _ :: _ :: _, _ => rfl

/-- Nothing else is in the dictionary: a column that begins with one of the letters does not remain under
its own name, whatever that name is. -/
theorem c129_removed (n : Nat) (t : Table α) (k : String) (h : ¬ Plain k)
    (h1 : k ∉ ["xi", "yi", "zi"]) : (ofTable n t).get? k = none := by
  simp only [List.mem_cons, List.not_mem_nil, or_false, not_or] at h1
  obtain ⟨a, b, c⟩ := h1
  have e1 : ¬ "xi" = k := fun e => a e.symm
  have e2 : ¬ "yi" = k := fun e => b e.symm
  have e3 : ¬ "zi" = k := fun e => c e.symm
  have hh : k.toList.head? = some 'x' ∨ k.toList.head? = some 'y' ∨ k.toList.head? = some 'z' := by
    by_contra hn
    simp only [not_or] at hn
    exact h hn
  unfold ofTable
  simp only [add_get, base_get]
  simp [e1, e2, e3, hh]

/-- For a file with two rows or more (or none): one composition for each row, whose numbers are those of
that row in the order of the columns. -/
theorem c129_rows_partial (n : Nat) (hn : n ≠ 1) (cols : List (List α))
    (hc : ∀ c ∈ cols, c.length = n) :
    ∃ rows : List (List α), stack n cols = .arr (rows.map .row) ∧ rows.length = n ∧
      (∀ (r : Nat) (row : List α), rows[r]? = some row → row.length = cols.length ∧
        ∀ (j : Nat) (c : List α), cols[j]? = some c → row[j]? = c[r]?) := by
  refine ⟨(List.range n).map (fun r => cols.filterMap (fun c => c[r]?)), ?_, by simp, ?_⟩
  · simp [stack, hn, Function.comp_def]
  · intro r row hr
    simp only [List.getElem?_map, Option.map_eq_some_iff] at hr
    obtain ⟨a, ha, rfl⟩ := hr
    have hra : a = r ∧ r < n := by
      rw [List.getElem?_eq_some_iff] at ha
      obtain ⟨h1, h2⟩ := ha
      simp at h1 h2
      exact ⟨h2.symm, h1⟩
    obtain ⟨rfl, har⟩ := hra
    clear ha
    induction cols with
    | nil => simp
    | cons c cols ih =>
      have hl := hc c (by simp)
      have hlt : a < c.length := hl ▸ har
      obtain ⟨i1, i2⟩ := ih (fun c h => hc c (by simp [h]))
      have e : c[a]? = some c[a] := List.getElem?_eq_getElem hlt
      rw [List.filterMap_cons, e]
      refine ⟨by simp [i1], ?_⟩
      intro j d hj
      cases j with
      | zero => simp at hj; subst hj; simp [e]
      | succ j => simpa using i2 j d (by simpa using hj)

/-- A file with one row: the composition is a vector of numbers, as if the file held as many rows as there
are components. -/
theorem c129_violated_one_row (cols : List (List α)) (hc : ∀ c ∈ cols, c.length = 1) :
    ∃ v : List α, stack 1 cols = .arr (v.map .num) ∧ v.length = cols.length := by
  refine ⟨cols.filterMap (fun c => c[0]?), ?_, ?_⟩
  · simp only [stack, if_true, Arg.arr.injEq]
    induction cols with
    | nil => rfl
    | cons c cols ih =>
      have := ih (fun c h => hc c (by simp [h]))
      rw [List.filterMap_cons, List.filterMap_cons]
      cases c[0]? <;> simp [this]
  · induction cols with
    | nil => rfl
    | cons c cols ih =>
      have hl := hc c (by simp)
      have e : c[0]? = some c[0] := List.getElem?_eq_getElem (by omega)
      rw [List.filterMap_cons, e]
      simp [ih (fun c h => hc c (by simp [h]))]

/-- The constants of the data classes, for numbers `0` and `1` in place of the physical ones. -/
def fileConsts : DataClasses.Consts (Cell ℤ) :=
  ⟨.num 298, .num 101325, .row [1], .num 1, .num 1, .num 1, .num 1, .num 1, fun l => .ok (!l.isEmpty)⟩

/-- One measured density of a binary liquid, in a file with the columns T, P, x1, x2, rhol, becomes a data
set of two states whose compositions are single numbers; the same file with two rows gives two states with
two compositions. -/
theorem c129_violated_one_point :
    (∃ b, DataClasses.build fileConsts .liquid ⟨true, 2, PyDict.empty, none, none,
        ofTable 1 [("T", [300]), ("P", [100]), ("x1", [3]), ("x2", [7]), ("rhol", [9])]⟩ = .ok b ∧
      b.npoints = 2 ∧ b.vals.get? "xilist" = some (.arr [.num 3, .num 7]) ∧
      b.vals.get? "rhol" = some (.arr [.num 9, .num 9])) ∧
    (∃ b, DataClasses.build fileConsts .liquid ⟨true, 2, PyDict.empty, none, none,
        ofTable 2 [("T", [300, 310]), ("P", [100, 100]), ("x1", [3, 4]), ("x2", [7, 6]),
          ("rhol", [9, 8])]⟩ = .ok b ∧
      b.npoints = 2 ∧ b.vals.get? "xilist" = some (.arr [.row [3, 7], .row [4, 6]]) ∧
      b.vals.get? "rhol" = some (.arr [.num 9, .num 8])) := by
  refine ⟨⟨_, rfl, ?_⟩, ⟨_, rfl, ?_⟩⟩ <;> decide

/-- One measured density of a ternary liquid gives three states. -/
theorem c129_violated_three_components :
    ∃ b, DataClasses.build fileConsts .liquid ⟨true, 3, PyDict.empty, none, none,
        ofTable 1 [("T", [300]), ("x1", [3]), ("x2", [5]), ("x3", [2]), ("rhol", [9])]⟩ = .ok b ∧
      b.npoints = 3 := by
  refine ⟨_, rfl, ?_⟩; decide

/-- The numbers in the names are not read: when the column x2 stands before x1, the mole fractions are
exchanged. -/
theorem c129_violated_numbering :
    (ofTable 2 [("x2", [7, 6]), ("x1", [3, 4])]).get? "xi" =
      some (Arg.arr [Cell.row [(7 : ℤ), 3], Cell.row [6, 4]]) := by decide

/-- A column of another kind whose name begins with one of the letters becomes a component. -/
theorem c129_violated_name :
    (ofTable 2 [("x1", [3, 4]), ("x2", [7, 6]), ("xi_std", [1, 1])]).get? "xi" =
      some (Arg.arr [Cell.row [(3 : ℤ), 7, 1], Cell.row [4, 6, 1]]) ∧
    (ofTable 2 [("x1", [3, 4]), ("x2", [7, 6]), ("xi_std", [1, (1 : ℤ)])]).get? "xi_std" = none := by
  decide

/-- Reading fails only with a `ValueError`, and then exactly when `np.genfromtxt` fails. -/
theorem c129_reading (g : String → Except PyErr (Nat × Table α)) (f : String) :
    (∀ e, expDataFile g f = .error e → e = .valueError) ∧
    ((∃ e, expDataFile g f = .error e) ↔ ∃ e, g f = .error e) ∧
    (∀ n t, g f = .ok (n, t) → expDataFile g f = .ok (ofTable n t)) := by
  unfold expDataFile
  cases h : g f with
  | error e => simp
  | ok p =>
    refine ⟨by simp, by simp, ?_⟩
    intro n t e
    simp only [Except.ok.injEq] at e
    subst e
    rfl

example : Plain "T" ∧ Plain "rhol" ∧ ¬ Plain "xi_std" := by
  refine ⟨?_, ?_, ?_⟩ <;> simp [Plain]

/-- A file as in the documentation. -/
example : ofTable 2 [("T", [300, 310]), ("x1", [3, 4]), ("x2", [7, 6]), ("y1", [5, 5]), ("y2", [5, 5])] =
    ⟨[("T", .arr [.num (300 : ℤ), .num 310]), ("xi", .arr [.row [3, 7], .row [4, 6]]),
      ("yi", .arr [.row [5, 5], .row [5, 5]])]⟩ := by decide

/-! ## Data sets -/

section DataSet
variable {ν : Type}
variable (file : ν → Except PyErr (PyDict String ν)) (beads : ν → Except PyErr ν)

/-- What one entry writes: the entry itself, all columns of the file, or the dictionary of the equation of
state. -/
def Writes (p : String × ν) (k : String) (v : ν) : Prop :=
  (p.1 ∉ ["file", "bead_configuration"] ∧ k = p.1 ∧ v = p.2) ∨
  (p.1 = "file" ∧ ∃ f, file p.2 = .ok f ∧ f.get? k = some v) ∨
  (p.1 = "bead_configuration" ∧ k = "eos_dict" ∧ beads p.2 = .ok v)

private theorem step_writes (hf : ∀ w f, file w = .ok f → f.WF) (d d' : PyDict String ν)
    (p : String × ν) (h : dataStep file beads d p = .ok d') (k : String) (v : ν) :
    d'.get? k = some v ↔ Writes file beads p k v ∨
      (d.get? k = some v ∧ ∀ w, ¬ Writes file beads p k w) := by
  obtain ⟨a, b⟩ := p
  unfold dataStep at h
  simp only at h
  by_cases h1 : a = "file"
  · subst h1
    simp only [show ¬ ("file" = "data_class_type") by decide, if_false, if_true] at h
    cases hb : file b with
    | error e => rw [hb] at h; simp at h
    | ok f =>
      rw [hb] at h
      simp only [Except.ok.injEq] at h
      subst h
      rw [PyDict.get?_update _ _ (hf _ _ hb)]
      simp only [Writes, hb]
      cases hk : f.get? k <;> simp [hk]
  · by_cases h2 : a = "bead_configuration"
    · subst h2
      simp only [show ¬ ("bead_configuration" = "data_class_type") by decide,
        show ¬ ("bead_configuration" = "file") by decide, if_false, if_true] at h
      cases hb : beads b with
      | error e => rw [hb] at h; simp at h
      | ok f =>
        rw [hb] at h
        simp only [Except.ok.injEq] at h
        subst h
        rw [PyDict.get?_set]
        by_cases hk : k = "eos_dict"
        · subst hk; simp [Writes, hb]
        · have hk' : ¬ "eos_dict" = k := fun e => hk e.symm
          simp [Writes, hb, hk, hk']
    · have e : d' = d.set a b := by
        by_cases h3 : a = "data_class_type"
        · simp only [h3, if_true, Except.ok.injEq] at h; rw [h3]; exact h.symm
        · simp only [h1, h2, h3, if_false, Except.ok.injEq] at h; exact h.symm
      subst e
      rw [PyDict.get?_set]
      by_cases hk : k = a
      · subst hk; simp [Writes, h1, h2, eq_comm]
      · have hk' : ¬ a = k := fun e => hk e.symm
        simp [Writes, h1, h2, hk, hk']

/-- The last entry that writes a key decides its value. -/
theorem c129_last (hf : ∀ w f, file w = .ok f → f.WF) (l : List (String × ν)) (d : PyDict String ν)
    (h : expData file beads ⟨l⟩ = .ok d) (k : String) (v : ν) :
    d.get? k = some v ↔ ∃ l1 p l2, l = l1 ++ p :: l2 ∧ Writes file beads p k v ∧
      ∀ q ∈ l2, ∀ w, ¬ Writes file beads q k w := by
  have gen : ∀ (l : List (String × ν)) (d0 d : PyDict String ν), dataLoop file beads d0 l = .ok d →
      (d.get? k = some v ↔ (∃ l1 p l2, l = l1 ++ p :: l2 ∧ Writes file beads p k v ∧
        ∀ q ∈ l2, ∀ w, ¬ Writes file beads q k w) ∨
        (d0.get? k = some v ∧ ∀ q ∈ l, ∀ w, ¬ Writes file beads q k w)) := by
    intro l
    induction l with
    | nil =>
      intro d0 d h
      simp only [dataLoop, Except.ok.injEq] at h
      subst h
      simp
    | cons p l ih =>
      intro d0 d h
      simp only [dataLoop] at h
      cases hs : dataStep file beads d0 p with
      | error e => rw [hs] at h; simp at h
      | ok d1 =>
        rw [hs] at h
        rw [ih d1 d h, step_writes file beads hf d0 d1 p hs k v]
        constructor
        · rintro (⟨l1, q, l2, rfl, hq, hn⟩ | ⟨hw | ⟨h0, hn⟩, hl⟩)
          · exact Or.inl ⟨p :: l1, q, l2, rfl, hq, hn⟩
          · exact Or.inl ⟨[], p, l, rfl, hw, hl⟩
          · refine Or.inr ⟨h0, ?_⟩
            intro q hq
            rcases List.mem_cons.1 hq with rfl | hq
            · exact hn
            · exact hl q hq
        · rintro (⟨l1, q, l2, e, hq, hn⟩ | ⟨h0, hn⟩)
          · cases l1 with
            | nil =>
              simp only [List.nil_append, List.cons.injEq] at e
              obtain ⟨rfl, rfl⟩ := e
              exact Or.inr ⟨Or.inl hq, hn⟩
            | cons a l1 =>
              simp only [List.cons_append, List.cons.injEq] at e
              obtain ⟨rfl, rfl⟩ := e
              exact Or.inl ⟨l1, q, l2, rfl, hq, hn⟩
          · exact Or.inr ⟨Or.inr ⟨h0, hn p (by simp)⟩, fun q hq => hn q (by simp [hq])⟩
  have := gen l PyDict.empty d h
  simpa using this

/-- Every entry that is not a file or a bead configuration arrives unchanged, unless a file that comes after
it has a column of that name. -/
theorem c129_entry (hf : ∀ w f, file w = .ok f → f.WF) (l : List (String × ν)) (d : PyDict String ν)
    (h : expData file beads ⟨l⟩ = .ok d) (hl : (l.map Prod.fst).Nodup) (k : String) (v : ν)
    (hk : k ∉ ["file", "bead_configuration", "eos_dict"]) (hm : (k, v) ∈ l)
    (hfile : ∀ w f, ("file", w) ∈ l → file w = .ok f → k ∉ f.keys) : d.get? k = some v := by
  rw [c129_last file beads hf l d h k v]
  simp only [List.mem_cons, List.not_mem_nil, or_false, not_or] at hk
  obtain ⟨l1, l2, rfl⟩ := List.append_of_mem hm
  refine ⟨l1, (k, v), l2, rfl, Or.inl ⟨by simp [hk.1, hk.2.1], rfl, rfl⟩, ?_⟩
  intro q hq w hw
  rcases hw with ⟨_, e, _⟩ | ⟨e, f, hff, hg⟩ | ⟨_, e, _⟩
  · simp only [List.map_append, List.map_cons] at hl
    have := (List.nodup_cons.1 (List.nodup_append.1 hl).2.1).1
    exact this (List.mem_map.2 ⟨q, hq, e.symm⟩)
  · refine hfile q.2 f ?_ hff ((PyDict.mem_keys_iff f k).2 ⟨w, hg⟩)
    rw [← e]
    simp [hq]
  · exact hk.2.2 e

/-- Every column of the file arrives, unless an entry after the file has the same name. -/
theorem c129_file_column (hf : ∀ w f, file w = .ok f → f.WF) (l1 l2 : List (String × ν)) (w : ν)
    (f d : PyDict String ν) (h : expData file beads ⟨l1 ++ ("file", w) :: l2⟩ = .ok d)
    (hw : file w = .ok f) (k : String) (v : ν) (hv : f.get? k = some v)
    (hk : k ∉ l2.map Prod.fst) (he : k ≠ "eos_dict") (hn : "file" ∉ l2.map Prod.fst) :
    d.get? k = some v := by
  rw [c129_last file beads hf _ d h k v]
  refine ⟨l1, ("file", w), l2, rfl, Or.inr (Or.inl ⟨rfl, f, hw, hv⟩), ?_⟩
  rintro q hq u (⟨_, e, _⟩ | ⟨e, _⟩ | ⟨_, e, _⟩)
  · exact hk (List.mem_map.2 ⟨q, hq, e.symm⟩)
  · exact hn (List.mem_map.2 ⟨q, hq, e⟩)
  · exact he e

/-- A data set is refused exactly when a file or a bead configuration cannot be read; otherwise there is
no exception. -/
theorem c129_failure (l : List (String × ν)) :
    (∃ e, expData file beads ⟨l⟩ = .error e) ↔
      ∃ p ∈ l, ∃ e, (p.1 = "file" ∧ file p.2 = .error e) ∨
        (p.1 = "bead_configuration" ∧ beads p.2 = .error e) := by
  unfold expData
  simp only
  generalize (PyDict.empty : PyDict String ν) = d
  induction l generalizing d with
  | nil => simp [dataLoop]
  | cons p l ih =>
    simp only [dataLoop, List.mem_cons, exists_eq_or_imp]
    have key : (∃ e, dataStep file beads d p = .error e) ↔
        ∃ e, (p.1 = "file" ∧ file p.2 = .error e) ∨
          (p.1 = "bead_configuration" ∧ beads p.2 = .error e) := by
      unfold dataStep
      by_cases h0 : p.1 = "data_class_type"
      · simp [h0]
      · by_cases h1 : p.1 = "file"
        · simp only [h1, show ¬ ("file" = "data_class_type") by decide, if_false, if_true]
          cases file p.2 <;> simp
        · by_cases h2 : p.1 = "bead_configuration"
          · simp only [h2, show ¬ ("bead_configuration" = "data_class_type") by decide,
              show ¬ ("bead_configuration" = "file") by decide, if_false, if_true]
            cases beads p.2 <;> simp
          · simp [h0, h1, h2]
    rw [← key]
    cases hs : dataStep file beads d p with
    | error e => simp
    | ok d1 => simpa using ih d1

end DataSet

/-- A file with the temperature, for the witnesses. -/
def witnessFile : ℤ → Except PyErr (PyDict String ℤ) := fun _ => .ok ⟨[("T", 300), ("P", 5)]⟩

/-- The same entries in another order give another data set: an explicit temperature is kept only when it
stands after the file. -/
theorem c129_violated_order :
    ∃ d d' : PyDict String ℤ,
      expData witnessFile .ok ⟨[("file", 0), ("T", 320)]⟩ = .ok d ∧
      expData witnessFile .ok ⟨[("T", 320), ("file", 0)]⟩ = .ok d' ∧
      d.get? "T" = some 320 ∧ d'.get? "T" = some 300 := by
  refine ⟨_, _, rfl, rfl, ?_, ?_⟩ <;> decide

/-- An explicit `eos_dict` is lost when a bead configuration follows. -/
theorem c129_violated_eos_dict :
    ∃ d : PyDict String ℤ,
      expData witnessFile .ok ⟨[("eos_dict", 1), ("bead_configuration", 2)]⟩ = .ok d ∧
      d.get? "eos_dict" = some 2 := by
  refine ⟨_, rfl, ?_⟩; decide

example : ∃ d, expData witnessFile .ok ⟨[("data_class_type", 1), ("file", 0), ("weights", 4)]⟩ = .ok d ∧
    d.get? "weights" = some 4 ∧ d.get? "T" = some 300 ∧ d.get? "data_class_type" = some 1 := by
  refine ⟨_, rfl, ?_⟩; decide

/-! ## Files of keys and values -/

section Text
variable {ν : Type} (delim : Char) (eval : List Char → Option ν) (text : List Char → ν)
  (float : List Char → Except PyErr ν)

theorem split_ne (l : List Char) : split delim l ≠ [] := by
  cases l with
  | nil => simp [split]
  | cons c r =>
    cases h : split delim r with
    | nil => simp [split, h]
    | cons w ws => by_cases hc : c = delim <;> simp [split, h, hc]

private theorem split_plain (l : List Char) (h : delim ∉ l) : split delim l = [l] := by
  induction l with
  | nil => rfl
  | cons c r ih =>
    simp only [List.mem_cons, not_or] at h
    have hc : ¬ c = delim := fun e => h.1 e.symm
    simp [split, ih h.2, hc]

/-- Splitting at the delimiter: the pieces are free of it and joining them gives the line back. -/
theorem c130_split (l : List Char) :
    List.intercalate [delim] (split delim l) = l ∧ (∀ w ∈ split delim l, delim ∉ w) ∧
      (split delim l).length = l.count delim + 1 := by
  induction l with
  | nil => simp [split, List.intercalate]
  | cons c r ih =>
    obtain ⟨i1, i2, i3⟩ := ih
    cases h : split delim r with
    | nil => exact absurd h (split_ne delim r)
    | cons w ws =>
      rw [h] at i1 i2 i3
      by_cases hc : c = delim
      · subst hc
        simp only [split, h, if_true]
        refine ⟨?_, ?_, ?_⟩
        · rw [← i1]; simp [List.intercalate]
        · intro u hu
          rcases List.mem_cons.1 hu with rfl | hu
          · simp
          · exact i2 u hu
        · simp at i3 ⊢; omega
      · simp only [split, h, hc, if_false]
        refine ⟨?_, ?_, ?_⟩
        · rw [← i1]
          cases ws <;> simp [List.intercalate]
        · intro u hu
          rcases List.mem_cons.1 hu with rfl | hu
          · have := i2 w (by simp)
            have hc' : ¬ delim = c := fun e => hc e.symm
            simp [this, hc']
          · exact i2 u (by simp [hu])
        · simp [hc] at i3 ⊢; omega

private theorem split_pair (k v : List Char) (hk : delim ∉ k) (hv : delim ∉ v) :
    split delim (k ++ delim :: v) = [k, v] := by
  induction k with
  | nil => simp [split, split_plain delim v hv]
  | cons c k ih =>
    simp only [List.mem_cons, not_or] at hk
    have hc : ¬ c = delim := fun e => hk.1 e.symm
    simp [split, ih hk.2, hc]

/-- A line with a key and a value that python can evaluate. -/
theorem c130_value (d : PyDict (List Char) ν) (k v : List Char) (hk : delim ∉ k) (hv : delim ∉ v)
    (a : ν) (ha : eval v = some a) :
    lineStep delim eval text float d (k ++ delim :: v) = .ok (d.set k a) := by
  unfold lineStep
  rw [split_pair delim k v hk hv]
  simp [ha]

/-- A line with no delimiter or with more than one is dropped without notice. -/
theorem c130_dropped (d : PyDict (List Char) ν) (l : List Char) (h : l.count delim ≠ 1) :
    lineStep delim eval text float d l = .ok d := by
  have h3 := (c130_split delim l).2.2
  unfold lineStep
  rcases hs : split delim l with _ | ⟨a, _ | ⟨b, _ | ⟨c, m⟩⟩⟩
  · rfl
  · rfl
  · rw [hs] at h3; simp at h3; omega
  · rfl

/-- A value that cannot be evaluated, on a line whose second character is not a digit: the rest of the line is
stored as text, with the end of the line. -/
theorem c130_text (d : PyDict (List Char) ν) (k v : List Char) (hk : delim ∉ k) (hv : delim ∉ v)
    (he : eval v = none) (c : Char) (hc : (k ++ delim :: v)[1]? = some c) (hd : c.isDigit = false) :
    lineStep delim eval text float d (k ++ delim :: v) = .ok (d.set k (text v)) := by
  unfold lineStep
  rw [split_pair delim k v hk hv]
  simp only [he, fallback, hc, hd, Bool.false_eq_true, if_false]

/-- … and when it is a digit, the value must be a number, although it could not be evaluated. -/
theorem c130_digit (d : PyDict (List Char) ν) (k v : List Char) (hk : delim ∉ k) (hv : delim ∉ v)
    (he : eval v = none) (c : Char) (hc : (k ++ delim :: v)[1]? = some c) (hd : c.isDigit = true) :
    lineStep delim eval text float d (k ++ delim :: v) =
      (match float v with | .error e => .error e | .ok a => .ok (d.set k a)) := by
  unfold lineStep
  rw [split_pair delim k v hk hv]
  simp only [he, fallback, hc, hd, if_true]
  cases float v <;> rfl

/-- A whole file of lines `key value` with distinct keys whose values can be evaluated: the dictionary has
exactly these keys and values. -/
theorem c130_file_partial (l : List (List Char × List Char × ν))
    (hk : ∀ p ∈ l, delim ∉ p.1 ∧ delim ∉ p.2.1 ∧ eval p.2.1 = some p.2.2)
    (hn : (l.map Prod.fst).Nodup) :
    fileDict delim eval text float PyDict.empty (l.map (fun p => p.1 ++ delim :: p.2.1)) =
      .ok ⟨l.map (fun p => (p.1, p.2.2))⟩ := by
  have gen : ∀ (l : List (List Char × List Char × ν)) (d : PyDict (List Char) ν),
      (∀ p ∈ l, delim ∉ p.1 ∧ delim ∉ p.2.1 ∧ eval p.2.1 = some p.2.2) →
      (d.keys ++ l.map Prod.fst).Nodup →
      fileDict delim eval text float d (l.map (fun p => p.1 ++ delim :: p.2.1)) =
        .ok ⟨d.entries ++ l.map (fun p => (p.1, p.2.2))⟩ := by
    intro l
    induction l with
    | nil => intro d _ _; simp [fileDict]
    | cons p l ih =>
      intro d hk hn
      obtain ⟨h1, h2, h3⟩ := hk p (by simp)
      simp only [List.map_cons, fileDict, c130_value delim eval text float d p.1 p.2.1 h1 h2 _ h3]
      have hp : p.1 ∉ d.keys := by
        intro hm
        have := (List.nodup_append.1 hn).2.2 p.1 hm p.1 (by simp)
        exact this rfl
      have hs : (d.set p.1 p.2.2).entries = d.entries ++ [(p.1, p.2.2)] := by
        obtain ⟨e⟩ := d
        simp only [PyDict.keys, PyDict.set] at hp ⊢
        clear hn
        induction e with
        | nil => rfl
        | cons q e ihe =>
          simp only [List.map_cons, List.mem_cons, not_or] at hp
          have hq : ¬ q.1 = p.1 := fun e => hp.1 e.symm
          simp [PyDict.setL, hq, ihe hp.2]
      rw [ih (d.set p.1 p.2.2) (fun q hq => hk q (by simp [hq])) ?_, hs]
      · simp
      · rw [PyDict.keys, hs]
        simpa [PyDict.keys] using hn
  exact gen l PyDict.empty hk (by simpa [PyDict.keys, PyDict.empty] using hn)

end Text

/-- Evaluation of the witnesses: only the number `5` (with the end of the line or without) is an expression. -/
def witnessEval (v : List Char) : Option (List Char) :=
  if v = "5\n".toList ∨ v = "5".toList then some "5".toList else none

/-- Reading of numbers for the witnesses: what cannot be evaluated is no number either. -/
def witnessFloat (_ : List Char) : Except PyErr (List Char) := .error .valueError

/-- The end of the line remains part of a text: the last line of the file, which may have none, differs. -/
theorem c130_violated_newline :
    fileDict ' ' witnessEval id witnessFloat PyDict.empty ["rule mean\n".toList, "other mean".toList] =
      .ok ⟨[("rule".toList, "mean\n".toList), ("other".toList, "mean".toList)]⟩ := by decide

/-- A key with a digit in second place cannot have a text as its value, with any other key it can. -/
theorem c130_violated_digit :
    fileDict ' ' witnessEval id witnessFloat PyDict.empty ["k1 mean\n".toList] = .error .valueError ∧
    fileDict ' ' witnessEval id witnessFloat PyDict.empty ["kx mean\n".toList] =
      .ok ⟨[("kx".toList, "mean\n".toList)]⟩ := by decide

/-- A value with the delimiter in it (a list written with spaces, two blanks between key and value) is lost. -/
theorem c130_violated_blank :
    fileDict ' ' witnessEval id witnessFloat PyDict.empty
      ["a [1, 2]\n".toList, "b  5\n".toList, "c 5\n".toList] = .ok ⟨[("c".toList, "5".toList)]⟩ := by
  decide

/-- A last line made of one delimiter alone is an `IndexError`. -/
theorem c130_violated_index :
    fileDict ' ' witnessEval id witnessFloat PyDict.empty [" ".toList] = .error .indexError := by decide

example : fileDict ' ' witnessEval id witnessFloat PyDict.empty ["a 5\n".toList, "b 5".toList] =
    .ok ⟨[("a".toList, "5".toList), ("b".toList, "5".toList)]⟩ := by decide

end Verif.Props
