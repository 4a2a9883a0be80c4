import Verif.Model.Rows
import Verif.Model.PhaseDensity
import Verif.Props.Dispatch
import Verif.Props.CalcTypes
import Verif.Props.Run
import Verif.Props.BubbleDew
import Verif.Props.BubbleGuess

/-!
# C142: a point that fails costs its own row of the table only
# C143: activity coefficients belong to the phases of their row
-/

namespace Verif.Props
open Verif Verif.CalcTypes Verif.BubbleDew Verif.Rows

/-- Specification: a cell is a number (`none`) or an array of the given length. -/
def Shaped (w : Option Nat) (c : Dispatch.Cell Num) : Prop :=
  match w, c with
  | none, .num _ => True
  | some k, .arr l => l.length = k
  | _, _ => False

/-- Specification: the numbers in a cell. -/
def numbersIn : Dispatch.Cell Num → List Num
  | .num x => [x]
  | .arr l => l

/-- Specification: the names of the columns of a property: numbered only if there are several. -/
def headings (key : String) : Option Nat → List String
  | none => [key]
  | some 1 => [key]
  | some k => (List.range k).map fun (j : Nat) => key ++ Nat.repr (j + 1)

/-- The columns of a property. -/
def colsOf {α : Type} (key : String) (w : Option Nat) (f : α → Dispatch.Cell Num) (xs : List α) : List (String × List Num) :=
  ((headings key w).zip (List.range (headings key w).length)).map fun p =>
    (p.1, xs.map fun x => ((numbersIn (f x))[p.2]?).getD none)

theorem headings_length (key : String) (w : Option Nat) (c : Dispatch.Cell Num) (hs : Shaped w c) (hw : w ≠ some 0) :
    (headings key w).length = (numbersIn c).length := by
  cases w with
  | none => cases c with
    | num x => rfl
    | arr l => exact hs.elim
  | some k => cases c with
    | num x => exact hs.elim
    | arr l =>
      have hl : l.length = k := hs
      match k, hw, hl with
      | 0, hw, _ => exact absurd rfl hw
      | 1, _, hl => exact hl.symm
      | k + 2, _, hl => simp [headings, numbersIn, hl]

theorem range_getD (l : List Num) : (List.range l.length).map (fun j => (l[j]?).getD none) = l := by
  apply List.ext_getElem?
  intro i
  by_cases h : i < l.length
  · simp [h]
  · simp [h]

theorem columnsOf_one (key : String) (r0 : List Num) (rs : List (List Num)) (h : r0.length = 1) :
    Dispatch.columnsOf key ((r0 :: rs).map .arr) = .ok [(key, (r0 :: rs).flatten)] := by
  have hs : Dispatch.allSome Dispatch.Cell.arr? ((r0 :: rs).map (Dispatch.Cell.arr : List Num → _)) =
      some ((r0 :: rs).map id) := allSome_map _ _ _ _ (fun c _ => rfl)
  rw [List.map_id] at hs
  simp only [Dispatch.columnsOf, List.map_cons, Dispatch.Cell.size, h, Nat.lt_irrefl, if_false]
  rw [← List.map_cons, hs]

theorem columnsOf_many (key : String) (k : Nat) (hk : 1 < k) (r0 : List Num) (rs : List (List Num))
    (h : ∀ r ∈ r0 :: rs, r.length = k) :
    Dispatch.columnsOf key ((r0 :: rs).map .arr) =
      .ok ((List.range k).map fun (i : Nat) => (key ++ Nat.repr (i + 1), Dispatch.nth i (r0 :: rs))) := by
  have hs : Dispatch.allSome Dispatch.Cell.arr? ((r0 :: rs).map (Dispatch.Cell.arr : List Num → _)) =
      some ((r0 :: rs).map id) := allSome_map _ _ _ _ (fun c _ => rfl)
  rw [List.map_id] at hs
  have h00 : r0.length = k := h r0 (List.mem_cons_self ..)
  have hall : (r0 :: rs).all (fun r => decide (r.length = k)) = true :=
    List.all_eq_true.mpr (fun r hr => decide_eq_true (h r hr))
  simp only [Dispatch.columnsOf, List.map_cons, Dispatch.Cell.size, h00, if_pos hk]
  rw [← List.map_cons, hs]
  simp only [hall, if_true]

theorem flatten_ones {α : Type} (g : α → List Num) (l : List α) (h : ∀ x ∈ l, (g x).length = 1) :
    (l.map g).flatten = l.map fun x => ((g x)[0]?).getD none := by
  induction l with
  | nil => rfl
  | cons y l ih =>
    obtain ⟨v, hv⟩ := List.length_eq_one_iff.mp (h y (by simp))
    simp only [List.map_cons, List.flatten_cons, hv, ih fun x hx => h x (by simp [hx])]
    rfl

theorem nth_map {α : Type} (g : α → List Num) (j k : Nat) (hj : j < k) (l : List α) (h : ∀ x ∈ l, (g x).length = k) :
    Dispatch.nth j (l.map g) = l.map fun x => ((g x)[j]?).getD none := by
  induction l with
  | nil => rfl
  | cons y l ih =>
    have hy : j < (g y).length := by rw [h y (by simp)]; exact hj
    have := ih fun x hx => h x (by simp [hx])
    unfold Dispatch.nth at this ⊢
    rw [List.map_cons, List.filterMap_cons, List.getElem?_eq_getElem hy]
    simp only [List.map_cons, this, List.getElem?_eq_getElem hy, Option.getD_some]

theorem zip_range (f : Nat → String) (k : Nat) :
    ((List.range k).map f).zip (List.range ((List.range k).map f).length) = (List.range k).map fun j => (f j, j) := by
  apply List.ext_getElem
  · simp
  · intro i h1 h2
    simp

theorem columnsOf_shaped {α : Type} (key : String) (w : Option Nat) (hw : w ≠ some 0) (f : α → Dispatch.Cell Num) (xs : List α)
    (hx : xs ≠ []) (h : ∀ x ∈ xs, Shaped w (f x)) : Dispatch.columnsOf key (xs.map f) = .ok (colsOf key w f xs) := by
  obtain ⟨x0, rest, rfl⟩ := List.exists_cons_of_ne_nil hx
  cases w with
  | none =>
    have hf : ∀ x ∈ x0 :: rest, ∃ v, f x = .num v := by
      intro x hm
      have := h x hm
      cases hfx : f x with
      | num v => exact ⟨v, rfl⟩
      | arr l => rw [hfx] at this; exact this.elim
    have heq : (x0 :: rest).map f = ((x0 :: rest).map fun x => ((numbersIn (f x))[0]?).getD none).map Dispatch.Cell.num := by
      rw [List.map_map]
      apply List.map_congr_left
      intro x hm
      obtain ⟨v, hv⟩ := hf x hm
      simp [hv, numbersIn]
    rw [heq, List.map_cons, c87_scalar_column]
    rfl
  | some k =>
    have hf : ∀ x ∈ x0 :: rest, f x = .arr (numbersIn (f x)) ∧ (numbersIn (f x)).length = k := by
      intro x hm
      have := h x hm
      cases hfx : f x with
      | num v => rw [hfx] at this; exact this.elim
      | arr l => rw [hfx] at this; exact ⟨rfl, this⟩
    have hmap : (x0 :: rest).map f = ((x0 :: rest).map fun x => numbersIn (f x)).map Dispatch.Cell.arr := by
      rw [List.map_map]
      exact List.map_congr_left fun x hm => (hf x hm).1
    rw [hmap]
    match k, hw with
    | 0, hw => exact absurd rfl hw
    | 1, _ =>
      have hl := flatten_ones (fun x => numbersIn (f x)) (x0 :: rest) fun x hm => (hf x hm).2
      rw [List.map_cons, columnsOf_one _ _ _ (hf x0 (by simp)).2, ← List.map_cons (f := fun x => numbersIn (f x)), hl]
      rfl
    | k + 2, _ =>
      rw [List.map_cons, columnsOf_many key (k + 2) (by omega) _ _ (by
        intro r hr
        rw [← List.map_cons (f := fun x => numbersIn (f x))] at hr
        obtain ⟨x, hm, rfl⟩ := List.mem_map.mp hr
        exact (hf x hm).2), ← List.map_cons (f := fun x => numbersIn (f x))]
      congr 1
      have hh : headings key (some (k + 2)) = (List.range (k + 2)).map fun (j : Nat) => key ++ Nat.repr (j + 1) := rfl
      unfold colsOf
      rw [hh, zip_range, List.map_map]
      apply List.map_congr_left
      intro j hj
      simp only [Function.comp]
      rw [nth_map (fun x => numbersIn (f x)) j (k + 2) (by simpa using hj) _ fun x hm => (hf x hm).2]

theorem colsOf_names {α : Type} (key : String) (w : Option Nat) (f : α → Dispatch.Cell Num) (xs : List α) :
    (colsOf key w f xs).map Prod.fst = headings key w := by
  unfold colsOf
  rw [List.map_map]
  have : (Prod.fst ∘ fun p : String × Nat => (p.1, xs.map fun x => ((numbersIn (f x))[p.2]?).getD none)) = Prod.fst := rfl
  rw [this, List.map_fst_zip]
  simp

theorem colsOf_row {α : Type} (key : String) (w : Option Nat) (hw : w ≠ some 0) (f : α → Dispatch.Cell Num) (xs : List α)
    (i : Nat) (x : α) (hi : xs[i]? = some x) (h : Shaped w (f x)) :
    Dispatch.nth i ((colsOf key w f xs).map Prod.snd) = numbersIn (f x) := by
  unfold colsOf Dispatch.nth
  rw [List.map_map, List.filterMap_map]
  have : ((fun r : List Num => r[i]?) ∘ (Prod.snd ∘ fun p : String × Nat =>
      (p.1, xs.map fun x => ((numbersIn (f x))[p.2]?).getD none))) = fun p => some (((numbersIn (f x))[p.2]?).getD none) := by
    funext p
    simp [hi]
  rw [this]
  have hm : ∀ l : List (String × Nat), l.filterMap (fun p => some (((numbersIn (f x))[p.2]?).getD none)) =
      (l.map Prod.snd).map fun j => ((numbersIn (f x))[j]?).getD none := by
    intro l
    induction l with
    | nil => rfl
    | cons a l ih => simp [ih]
  rw [hm, List.map_snd_zip (by simp), headings_length key w _ h hw, range_getD]

theorem colsOf_length {α : Type} (key : String) (w : Option Nat) (f : α → Dispatch.Cell Num) (xs : List α)
    (c : String × List Num) (hc : c ∈ colsOf key w f xs) : c.2.length = xs.length := by
  unfold colsOf at hc
  obtain ⟨p, -, rfl⟩ := List.mem_map.mp hc
  simp

theorem allColumns_shaped {α : Type} (layout : List (String × Option Nat × (α → Dispatch.Cell Num)))
    (xs : List α) (hx : xs ≠ []) (hw : ∀ l ∈ layout, l.2.1 ≠ some 0)
    (h : ∀ l ∈ layout, ∀ x ∈ xs, Shaped l.2.1 (l.2.2 x)) :
    Dispatch.allColumns (layout.map fun l => (l.1, xs.map l.2.2)) = .ok (layout.flatMap fun l => colsOf l.1 l.2.1 l.2.2 xs) ∧
      allColumnsObj (layout.map fun l => (l.1, xs.map l.2.2)) =
        .ok ((layout.flatMap fun l => colsOf l.1 l.2.1 l.2.2 xs).map fun c => (c.1, c.2.map .num)) := by
  induction layout with
  | nil => exact ⟨rfl, rfl⟩
  | cons l r ih =>
    obtain ⟨i1, i2⟩ := ih (fun l hl => hw l (by simp [hl])) fun l hl => h l (by simp [hl])
    have hc := columnsOf_shaped l.1 l.2.1 (hw l (by simp)) l.2.2 xs hx (h l (by simp))
    have hco : columnsObj l.1 (xs.map l.2.2) = .ok ((colsOf l.1 l.2.1 l.2.2 xs).map fun c => (c.1, c.2.map .num)) := by
      obtain ⟨x0, rest, hxs⟩ := List.exists_cons_of_ne_nil hx
      cases hf : l.2.2 x0 with
      | arr a =>
        rw [hxs, List.map_cons, hf] at hc ⊢
        simp only [columnsObj, hc]
      | num v =>
        have h0 := h l (by simp)
        have hwn : l.2.1 = none := by
          have := h0 x0 (by rw [hxs]; simp)
          rw [hf] at this
          cases hl : l.2.1 with
          | none => rfl
          | some k => rw [hl] at this; exact this.elim
        have : columnsObj l.1 (xs.map l.2.2) = .ok [(l.1, xs.map l.2.2)] := by
          rw [hxs, List.map_cons, hf]
          rfl
        rw [this, hwn]
        simp only [colsOf, headings, List.length_singleton, List.range_one, List.zip_cons_cons, List.zip_nil_left,
          List.map_cons, List.map_nil, List.map_map]
        congr 3
        apply List.map_congr_left
        intro x hm
        have := h0 x hm
        rw [hwn] at this
        cases hfx : l.2.2 x with
        | num v => simp [hfx, numbersIn]
        | arr a => rw [hfx] at this; exact this.elim
    refine ⟨?_, ?_⟩
    · simp only [List.map_cons, Dispatch.allColumns, hc, i1, List.flatMap_cons]
    · simp only [List.map_cons, allColumnsObj, hco, i2, List.flatMap_cons, List.map_append]

theorem nth_append {β : Type} (i : Nat) (a b : List (List β)) : Dispatch.nth i (a ++ b) = Dispatch.nth i a ++ Dispatch.nth i b := by
  unfold Dispatch.nth
  exact List.filterMap_append

theorem nth_layout {α : Type} (layout : List (String × Option Nat × (α → Dispatch.Cell Num)))
    (xs : List α) (i : Nat) (x : α) (hi : xs[i]? = some x) (hw : ∀ l ∈ layout, l.2.1 ≠ some 0)
    (h : ∀ l ∈ layout, Shaped l.2.1 (l.2.2 x)) :
    Dispatch.nth i ((layout.flatMap fun l => colsOf l.1 l.2.1 l.2.2 xs).map Prod.snd) =
      layout.flatMap fun l => numbersIn (l.2.2 x) := by
  induction layout with
  | nil => rfl
  | cons l r ih =>
    rw [List.flatMap_cons, List.map_append, nth_append, colsOf_row _ _ (hw l (by simp)) _ _ i x hi (h l (by simp)),
      ih (fun l hl => hw l (by simp [hl])) fun l hl => h l (by simp [hl]), List.flatMap_cons]

theorem nth_num (i : Nat) (l : List (List Num)) :
    Dispatch.nth i (l.map fun c => c.map Dispatch.Cell.num) = (Dispatch.nth i l).map Dispatch.Cell.num := by
  unfold Dispatch.nth
  induction l with
  | nil => rfl
  | cons a l ih =>
    rw [List.map_cons, List.filterMap_cons, List.filterMap_cons, List.getElem?_map]
    cases a[i]? with
    | none => exact ih
    | some v => simp [ih]

/-- **C142 (the table).** If every property has cells of one shape, the table is written, whatever the numbers are: with one row
for each point, in order, which has the numbers of this point only. The same holds for arrays of objects. -/
theorem c142_table {α : Type} (ct : String) (layout : List (String × Option Nat × (α → Dispatch.Cell Num))) (hl : layout ≠ [])
    (xs : List α) (hx : xs ≠ []) (hw : ∀ l ∈ layout, l.2.1 ≠ some 0)
    (h : ∀ l ∈ layout, ∀ x ∈ xs, Shaped l.2.1 (l.2.2 x)) :
    Dispatch.writeThermo ct (layout.map fun l => (l.1, xs.map l.2.2)) =
        .ok ⟨Dispatch.comment ct, layout.flatMap (fun l => (headings l.1 l.2.1).map fun k => (k, Dispatch.unitOf k)),
          xs.map fun x => layout.flatMap fun l => numbersIn (l.2.2 x)⟩ ∧
      writeObj ct (layout.map fun l => (l.1, xs.map l.2.2)) =
        .ok ⟨Dispatch.comment ct, layout.flatMap (fun l => (headings l.1 l.2.1).map fun k => (k, Dispatch.unitOf k)),
          xs.map fun x => (layout.flatMap fun l => numbersIn (l.2.2 x)).map .num⟩ := by
  obtain ⟨a1, a2⟩ := allColumns_shaped layout xs hx hw h
  have hlen : ∀ c ∈ layout.flatMap fun l => colsOf l.1 l.2.1 l.2.2 xs, c.2.length = xs.length := by
    intro c hc
    obtain ⟨l, -, hm⟩ := List.mem_flatMap.mp hc
    exact colsOf_length _ _ _ _ c hm
  have hrow : ∀ i x, xs[i]? = some x →
      Dispatch.nth i ((layout.flatMap fun l => colsOf l.1 l.2.1 l.2.2 xs).map Prod.snd) =
        layout.flatMap fun l => numbersIn (l.2.2 x) := by
    intro i x hi
    exact nth_layout layout xs i x hi hw fun l hl => h l hl x (List.mem_of_getElem? hi)
  have hnames : (layout.flatMap fun l => colsOf l.1 l.2.1 l.2.2 xs).map (fun c => (c.1, Dispatch.unitOf c.1)) =
      layout.flatMap (fun l => (headings l.1 l.2.1).map fun k => (k, Dispatch.unitOf k)) := by
    rw [List.map_flatMap]
    congr 1
    funext l
    rw [← colsOf_names l.1 l.2.1 l.2.2 xs, List.map_map]
    rfl
  have hne : (layout.flatMap fun l => colsOf l.1 l.2.1 l.2.2 xs) ≠ [] := by
    intro e
    obtain ⟨l, r, rfl⟩ := List.exists_cons_of_ne_nil hl
    obtain ⟨x0, rest, rfl⟩ := List.exists_cons_of_ne_nil hx
    rw [List.flatMap_cons] at e
    have e1 := congrArg List.length (List.append_eq_nil_iff.mp e).1
    have e2 := headings_length l.1 l.2.1 _ (h l (by simp) x0 (by simp)) (hw l (by simp))
    have e3 : (colsOf l.1 l.2.1 l.2.2 (x0 :: rest)).length = (headings l.1 l.2.1).length := by
      rw [← colsOf_names l.1 l.2.1 l.2.2 (x0 :: rest), List.length_map]
    rw [e3] at e1
    have hk := h l (by simp) x0 (by simp)
    have hw0 := hw l (by simp)
    match hl2 : l.2.1, hw0, e1 with
    | none, _, e1 => cases e1
    | some 0, hw0, _ => exact hw0 rfl
    | some 1, _, e1 => cases e1
    | some (k + 2), _, e1 => simp [headings] at e1
  generalize hcols : (layout.flatMap fun l => colsOf l.1 l.2.1 l.2.2 xs) = cols at *
  obtain ⟨c, cs, rfl⟩ := List.exists_cons_of_ne_nil hne
  have hc := hlen c (by simp)
  have hrows : (List.range xs.length).map (fun (i : Nat) => Dispatch.nth i ((c :: cs).map Prod.snd)) =
      xs.map fun x => layout.flatMap fun l => numbersIn (l.2.2 x) := by
    apply List.ext_getElem?
    intro i
    by_cases hi : i < xs.length
    · rw [List.getElem?_map, List.getElem?_range hi, List.getElem?_map, List.getElem?_eq_getElem hi]
      simp only [Option.map_some]
      rw [hrow i xs[i] (List.getElem?_eq_getElem hi)]
    · rw [List.getElem?_eq_none (by simpa using hi), List.getElem?_eq_none (by simpa using hi)]
  refine ⟨?_, ?_⟩
  · unfold Dispatch.writeThermo
    rw [a1]
    simp only
    rw [if_pos (List.all_eq_true.mpr fun d hd => decide_eq_true (by rw [hlen d (by simp [hd]), hc])), hc, hrows, hnames]
  · unfold writeObj
    rw [a2, List.map_cons]
    simp only
    rw [if_pos]
    · have hsnd : ((c.1, c.2.map Dispatch.Cell.num) :: cs.map fun c => (c.1, c.2.map Dispatch.Cell.num)).map Prod.snd =
          ((c :: cs).map Prod.snd).map fun l => l.map Dispatch.Cell.num := by
        simp [List.map_map, Function.comp]
      have hn : ((c.1, c.2.map Dispatch.Cell.num) :: cs.map fun c => (c.1, c.2.map Dispatch.Cell.num)).map
          (fun d => (d.1, Dispatch.unitOf d.1)) = (c :: cs).map fun c => (c.1, Dispatch.unitOf c.1) := by
        simp [List.map_map, Function.comp]
      rw [hsnd, hn, hnames, List.length_map, hc]
      congr 2
      have : (fun (i : Nat) => Dispatch.nth i (((c :: cs).map Prod.snd).map fun l => l.map Dispatch.Cell.num)) =
          fun i => (Dispatch.nth i ((c :: cs).map Prod.snd)).map Dispatch.Cell.num := by
        funext i
        exact nth_num i _
      have h2 := congrArg (List.map (List.map Dispatch.Cell.num)) hrows
      rw [List.map_map, List.map_map] at h2
      rw [this]
      exact h2
    · refine List.all_eq_true.mpr fun d hd => decide_eq_true ?_
      obtain ⟨d', hd', rfl⟩ := List.mem_map.mp hd
      simp only [List.length_map]
      rw [hlen d' (by simp [hd']), hc]

/-- A batch of jobs that report every failure: entry `i` of column `b` is result `b` of point `i`. -/
theorem batch_columns {α : Type} (job : α → Except PyErr Out) (k : Nat) (g : α → Out) (hg : ∀ x, job x = .ok (g x))
    (hk : ∀ x, (g x).length = k) (hs : ∀ x, ∃ v, Parallel.Cell.scal v ∈ g x) (xs : List α) (hx : xs ≠ []) :
    Parallel.serialJob job xs = .ok ((List.range k).map fun b => xs.map fun x => ((g x)[b]?).getD (.scal none)) := by
  obtain ⟨g', hg', hr⟩ := guarded_batch job k (fun x => ⟨g x, hg x, hk x, hs x⟩) xs hx
  have : g' = g := by
    funext x
    have h1 := (hg' x).1
    rw [hg x] at h1
    exact (Except.ok.inj h1).symm
  subst this
  rw [hr]
  congr 1
  apply List.map_congr_left
  intro b hb
  have hb' : b < k := by simpa using hb
  clear hr hx
  induction xs with
  | nil => rfl
  | cons y l ih =>
    have hy : b < (g' y).length := by rw [hk]; exact hb'
    rw [List.filterMap_cons, List.getElem?_eq_getElem hy, List.map_cons, ih, List.getElem?_eq_getElem hy]
    rfl

/-- Specification: the line of a flash in the table: NaN and the flag 3 if it failed. -/
def flashLine {α : Type} (core : α → Except PyErr FlashResult) (T P : α → Num) (x : α) : List Num :=
  match core x with
  | .ok r => T x :: r.xi ++ P x :: r.yi ++ [r.flagl, r.flagv, r.obj]
  | .error _ => [T x, none, none, P x, none, none, some 3, some 3, none]

/-- **C142 (flash).** Whichever points fail, the table has a line for every point, in order: the results of this point, or NaN
with the flag 3. -/
theorem c142_flash {α : Type} (core : α → Except PyErr FlashResult) (T P : α → Num) (xs : List α) (hx : xs ≠ [])
    (hc : ∀ x r, core x = .ok r → r.xi.length = 2 ∧ r.yi.length = 2) :
    ∃ cols d t, Parallel.serialJob (flashJob 2 core) xs = .ok cols ∧ flashDict (xs.map T) (xs.map P) cols = .ok d ∧
      Dispatch.writeThermo "flash" d = .ok t ∧
      t.names.map Prod.fst = ["T", "xi1", "xi2", "P", "yi1", "yi2", "flagl", "flagv", "obj"] ∧
      t.rows = xs.map (flashLine core T P) ∧
      writeObj "flash" d = .ok ⟨t.comment, t.names, t.rows.map (List.map .num)⟩ := by
  let res : α → FlashResult := fun x => match core x with
    | .ok r => r
    | .error _ => ⟨[none, none], some 3, [none, none], some 3, none⟩
  have hres : ∀ x, (res x).xi.length = 2 ∧ (res x).yi.length = 2 := by
    intro x
    simp only [res]
    cases h : core x with
    | ok r => exact hc x r h
    | error e => exact ⟨rfl, rfl⟩
  have hb := batch_columns (flashJob 2 core) 5
    (fun x => [.vec (res x).xi, .vec (res x).yi, .scal (res x).flagv, .scal (res x).flagl, .scal (res x).obj])
    (fun x => by simp only [res, flashJob]; cases core x <;> rfl) (fun _ => rfl) (fun x => ⟨(res x).flagv, by simp⟩) xs hx
  let layout : List (String × Option Nat × (α → Dispatch.Cell Num)) :=
    [("T", none, fun x => .num (T x)), ("xi", some 2, fun x => .arr (res x).xi), ("P", none, fun x => .num (P x)),
      ("yi", some 2, fun x => .arr (res x).yi), ("flagl", none, fun x => .num (res x).flagl),
      ("flagv", none, fun x => .num (res x).flagv), ("obj", none, fun x => .num (res x).obj)]
  obtain ⟨t1, t2⟩ := c142_table "flash" layout (by simp [layout]) xs hx (by simp [layout]) (by
    intro l hl x _
    simp only [layout, List.mem_cons, List.not_mem_nil, or_false] at hl
    rcases hl with rfl | rfl | rfl | rfl | rfl | rfl | rfl
    exacts [trivial, (hres x).1, trivial, (hres x).2, trivial, trivial, trivial])
  refine ⟨_, layout.map fun l => (l.1, xs.map l.2.2), _, hb, ?_, t1, rfl, ?_, ?_⟩
  · have hr : (List.range 5) = [0, 1, 2, 3, 4] := rfl
    rw [hr]
    simp only [List.map_cons, List.map_nil, flashDict, dict, numbers, layout, List.map_map]
    rfl
  · apply List.map_congr_left
    intro x _
    simp only [layout, List.flatMap_cons, List.flatMap_nil, numbersIn, flashLine, res]
    cases core x <;> simp
  · rw [t2, List.map_map]
    rfl

/-- Specification: the line of a saturation calculation. -/
def saturationLine {α : Type} (core : α → Except PyErr (Num × Num × Num)) (T : α → Num) (x : α) : List Num :=
  match core x with
  | .ok (some p, rl, rv) => [T x, some p, rl, rv]
  | _ => [T x, none, none, none]

/-- **C142 (saturation).** -/
theorem c142_saturation {α : Type} (core : α → Except PyErr (Num × Num × Num)) (T : α → Num) (xs : List α) (hx : xs ≠ []) :
    ∃ cols d t, Parallel.serialJob (saturationJob core) xs = .ok cols ∧ saturationDict (xs.map T) cols = .ok d ∧
      Dispatch.writeThermo "saturation_properties" d = .ok t ∧ t.names.map Prod.fst = ["T", "Psat", "rhol", "rhov"] ∧
      t.rows = xs.map (saturationLine core T) ∧
      writeObj "saturation_properties" d = .ok ⟨t.comment, t.names, t.rows.map (List.map .num)⟩ := by
  let res : α → Num × Num × Num := fun x => match core x with
    | .ok (some p, rl, rv) => (some p, rl, rv)
    | _ => (none, none, none)
  have hjob : ∀ x, saturationJob core x = .ok [.scal (res x).1, .scal (res x).2.1, .scal (res x).2.2] := by
    intro x
    simp only [res, saturationJob]
    cases core x with
    | error e => rfl
    | ok r =>
      obtain ⟨P, rl, rv⟩ := r
      cases P <;> rfl
  have hb := batch_columns (saturationJob core) 3 _ hjob (fun _ => rfl) (fun x => ⟨(res x).1, by simp⟩) xs hx
  let layout : List (String × Option Nat × (α → Dispatch.Cell Num)) :=
    [("T", none, fun x => .num (T x)), ("Psat", none, fun x => .num (res x).1), ("rhol", none, fun x => .num (res x).2.1),
      ("rhov", none, fun x => .num (res x).2.2)]
  obtain ⟨t1, t2⟩ := c142_table "saturation_properties" layout (by simp [layout]) xs hx (by simp [layout]) (by
    intro l hl x _
    simp only [layout, List.mem_cons, List.not_mem_nil, or_false] at hl
    rcases hl with rfl | rfl | rfl | rfl
    all_goals trivial)
  refine ⟨_, layout.map fun l => (l.1, xs.map l.2.2), _, hb, ?_, t1, rfl, ?_, ?_⟩
  · have hr : (List.range 3) = [0, 1, 2] := rfl
    rw [hr]
    simp only [List.map_cons, List.map_nil, saturationDict, dict, numbers, layout, List.map_map]
    rfl
  · apply List.map_congr_left
    intro x _
    simp only [layout, List.flatMap_cons, List.flatMap_nil, numbersIn, saturationLine, res]
    cases core x with
    | error e => rfl
    | ok r =>
      obtain ⟨P, rl, rv⟩ := r
      cases P <;> rfl
  · rw [t2, List.map_map]
    rfl

/-- Specification: the line of the density and the fugacity coefficients of a phase. -/
def propertyLine {α : Type} (nc : Nat) (core : α → Except PyErr (List Num × Num × Num)) (P T : α → Num) (z : α → List Num)
    (x : α) : List Num :=
  match core x with
  | .ok (phi, rho, flag) => P x :: T x :: z x ++ rho :: phi ++ [flag]
  | .error _ => P x :: T x :: z x ++ none :: List.replicate nc none ++ [some 3]

/-- **C142 (properties of a phase), partial**: if there is a coefficient for each component at every point that does not raise. -/
theorem c142_properties_partial {α : Type} (nc : Nat) (hn : nc ≠ 0) (comp rho phi flag : String)
    (core : α → Except PyErr (List Num × Num × Num)) (P T : α → Num) (z : α → List Num) (hz : ∀ x, (z x).length = nc)
    (xs : List α) (hx : xs ≠ []) (hc : ∀ x r, core x = .ok r → r.1.length = nc) :
    ∃ cols d t, Parallel.serialJob (propertyJob nc core) xs = .ok cols ∧
      propertyDict comp rho phi flag (xs.map P) (xs.map T) (xs.map z) cols = .ok d ∧
      Dispatch.writeThermo "properties" d = .ok t ∧ t.rows = xs.map (propertyLine nc core P T z) ∧
      t.names.map Prod.fst = ["P", "T"] ++ headings comp (some nc) ++ [rho] ++ headings phi (some nc) ++ [flag] ∧
      writeObj "properties" d = .ok ⟨t.comment, t.names, t.rows.map (List.map .num)⟩ := by
  let res : α → List Num × Num × Num := fun x => match core x with
    | .ok r => r
    | .error _ => (List.replicate nc none, none, some 3)
  have hres : ∀ x, (res x).1.length = nc := by
    intro x
    simp only [res]
    cases h : core x with
    | ok r => exact hc x r h
    | error e => simp
  have hjob : ∀ x, propertyJob nc core x = .ok [.scal (res x).2.1, .vec (res x).1, .scal (res x).2.2] := by
    intro x
    simp only [res, propertyJob]
    cases core x <;> rfl
  have hb := batch_columns (propertyJob nc core) 3 _ hjob (fun _ => rfl) (fun x => ⟨(res x).2.1, by simp⟩) xs hx
  let layout : List (String × Option Nat × (α → Dispatch.Cell Num)) :=
    [("P", none, fun x => .num (P x)), ("T", none, fun x => .num (T x)), (comp, some nc, fun x => .arr (z x)),
      (rho, none, fun x => .num (res x).2.1), (phi, some nc, fun x => .arr (res x).1), (flag, none, fun x => .num (res x).2.2)]
  obtain ⟨t1, t2⟩ := c142_table "properties" layout (by simp [layout]) xs hx (by simp [layout, hn]) (by
    intro l hl x _
    simp only [layout, List.mem_cons, List.not_mem_nil, or_false] at hl
    rcases hl with rfl | rfl | rfl | rfl | rfl | rfl
    exacts [trivial, trivial, hz x, trivial, hres x, trivial])
  refine ⟨_, layout.map fun l => (l.1, xs.map l.2.2), _, hb, ?_, t1, ?_, ?_, ?_⟩
  · have hr : (List.range 3) = [0, 1, 2] := rfl
    rw [hr]
    simp only [List.map_cons, List.map_nil, propertyDict, dict, numbers, arrays, layout, List.map_map]
    rfl
  · apply List.map_congr_left
    intro x _
    simp only [layout, List.flatMap_cons, List.flatMap_nil, numbersIn, propertyLine, res]
    cases core x <;> simp
  · simp [layout, headings, List.map_map, Function.comp_def]
  · rw [t2, List.map_map]
    rfl

/-- Specification: the line of the solubility parameter. -/
def solubilityLine {α : Type} (dens : α → Except PyErr (Num × Num)) (solub : Num → α → Except PyErr Num) (P T : α → Num)
    (z : α → List Num) (x : α) : List Num :=
  match dens x with
  | .error _ => P x :: T x :: z x ++ [none, none]
  | .ok (rho, _) =>
    match solub rho x with
    | .error _ => P x :: T x :: z x ++ [none, none]
    | .ok d => P x :: T x :: z x ++ [rho, d]

/-- **C142 (solubility parameter).** -/
theorem c142_solubility {α : Type} (nc : Nat) (hn : nc ≠ 0) (dens : α → Except PyErr (Num × Num))
    (solub : Num → α → Except PyErr Num) (P T : α → Num) (z : α → List Num) (hz : ∀ x, (z x).length = nc)
    (xs : List α) (hx : xs ≠ []) :
    ∃ cols d t, Parallel.serialJob (solubilityJob dens solub) xs = .ok cols ∧
      solubilityDict (xs.map P) (xs.map T) (xs.map z) cols = .ok d ∧
      Dispatch.writeThermo "solubility_parameter" d = .ok t ∧ t.rows = xs.map (solubilityLine dens solub P T z) ∧
      t.names.map Prod.fst = ["P", "T"] ++ headings "xi" (some nc) ++ ["rhol", "delta"] ∧
      writeObj "solubility_parameter" d = .ok ⟨t.comment, t.names, t.rows.map (List.map .num)⟩ := by
  let res : α → Num × Num × Num := fun x => match dens x with
    | .error _ => (none, some 3, none)
    | .ok (rho, flag) => match solub rho x with
      | .error _ => (none, some 3, none)
      | .ok d => (rho, flag, d)
  have hjob : ∀ x, solubilityJob dens solub x = .ok [.scal (res x).1, .scal (res x).2.1, .scal (res x).2.2] := by
    intro x
    simp only [res, solubilityJob, bind, Except.bind]
    cases dens x with
    | error e => rfl
    | ok r =>
      simp only
      cases solub r.1 x <;> rfl
  have hb := batch_columns (solubilityJob dens solub) 3 _ hjob (fun _ => rfl) (fun x => ⟨(res x).1, by simp⟩) xs hx
  let layout : List (String × Option Nat × (α → Dispatch.Cell Num)) :=
    [("P", none, fun x => .num (P x)), ("T", none, fun x => .num (T x)), ("xi", some nc, fun x => .arr (z x)),
      ("rhol", none, fun x => .num (res x).1), ("delta", none, fun x => .num (res x).2.2)]
  obtain ⟨t1, t2⟩ := c142_table "solubility_parameter" layout (by simp [layout]) xs hx (by simp [layout, hn]) (by
    intro l hl x _
    simp only [layout, List.mem_cons, List.not_mem_nil, or_false] at hl
    rcases hl with rfl | rfl | rfl | rfl | rfl
    exacts [trivial, trivial, hz x, trivial, trivial])
  refine ⟨_, layout.map fun l => (l.1, xs.map l.2.2), _, hb, ?_, t1, ?_, ?_, ?_⟩
  · have hr : (List.range 3) = [0, 1, 2] := rfl
    rw [hr]
    simp only [List.map_cons, List.map_nil, solubilityDict, dict, numbers, arrays, layout, List.map_map]
    rfl
  · apply List.map_congr_left
    intro x _
    simp only [layout, List.flatMap_cons, List.flatMap_nil, numbersIn, solubilityLine, res]
    cases dens x with
    | error e => simp
    | ok r =>
      simp only
      cases solub r.1 x <;> simp
  · simp [layout, headings, List.map_map, Function.comp_def]
  · rw [t2, List.map_map]
    rfl

/-! ### Bubble and dew points -/

/-- The shape of the rows of bubble and dew points. -/
def PointRow (n : Nat) (r : Out) : Prop :=
  ∃ P l a b c, r = [Parallel.Cell.scal P, .vec l, .scal a, .scal b, .scal c] ∧ l.length = n

/-- Specification: the procedures return compositions with an entry for each of `n` components. -/
def Keeps (env : Env) (n : Nat) : Prop :=
  (∀ T z c tol, z.length = n → c.length = n → ∀ c', (env.prange T z c tol).2 = some c' → c'.length = n) ∧
  (∀ T z c tol P, z.length = n → c.length = n → (∀ new, (env.inner T z c tol P).1 = .ok new → new.length = n) ∧
    ∀ c', (env.inner T z c tol P).2 = some c' → c'.length = n)

/-- The module variable is not set, or has `n` entries. -/
def GlobOk (n : Nat) (g : Option Comp) : Prop := ∀ c, g = some c → c.length = n

/-- The module variable is set and has `n` entries. -/
def GlobSet (n : Nat) (g : Option Comp) : Prop := ∃ c, g = some c ∧ c.length = n

theorem globSet_or {n : Nat} {a g : Option Comp} (ha : GlobOk n a) (hg : GlobSet n g) : GlobSet n (a.or g) := by
  cases a with
  | none => exact hg
  | some c => exact ⟨c, rfl, ha c rfl⟩

theorem normalise_length (c : Comp) : (normalise c).length = c.length := by
  unfold normalise
  cases csum c <;> simp

theorem objective_glob (env : Env) (n : Nat) (hk : Keeps env n) (T : ℚ) (z : List ℚ) (hz : z.length = n) (tol : Option ℚ) (P : ℚ)
    (g : Option Comp) (hg : GlobSet n g) : GlobSet n (objective env T z tol P g).2 := by
  obtain ⟨c, rfl, hc⟩ := hg
  have h := hk.2 T z c tol P hz hc
  unfold objective
  simp only
  split_ifs with h0
  · exact ⟨c, rfl, hc⟩
  · cases he : env.inner T z c tol P with
    | mk r a =>
      rw [he] at h
      cases r with
      | error e => exact globSet_or (fun c' e' => h.2 c' e') ⟨c, rfl, hc⟩
      | ok new => exact ⟨_, rfl, by rw [normalise_length]; exact h.1 new rfl⟩

theorem runSolver_glob (n : Nat) (obj : ℚ → M (Option Comp) Num) (ho : ∀ P g, GlobSet n g → GlobSet n (obj P g).2) (s : Solver)
    (g : Option Comp) (hg : GlobSet n g) : GlobSet n (runSolver obj s g).2 := by
  induction s generalizing g with
  | done P => exact hg
  | fail e => exact hg
  | ask P next ih =>
    have h := ho P g hg
    simp only [runSolver]
    cases hc : obj P g with
    | mk r g' =>
      rw [hc] at h
      cases r with
      | error e => exact h
      | ok v => exact ih v g' h

theorem chunk_length {α β : Type} (f : α → Except PyErr β) (l : List α) (r : List β) (h : Parallel.runChunk f l = .ok r) :
    r.length = l.length := by
  induction l generalizing r with
  | nil => cases h; rfl
  | cons a l ih =>
    simp only [Parallel.runChunk] at h
    cases h1 : f a with
    | error e => simp only [h1] at h; cases h
    | ok b =>
      simp only [h1] at h
      cases h2 : Parallel.runChunk f l with
      | error e => simp only [h2] at h; cases h
      | ok bs =>
        simp only [h2] at h
        cases h
        simp [ih bs h2]

theorem psats_length (env : Env) (T Pset : ℚ) (n : Nat) (ps : List ℚ) (h : psats env T Pset n = .ok ps) : ps.length = n := by
  have := chunk_length _ _ _ h
  simpa using this

theorem calcPoint_glob (env : Env) (raoult : Num → List ℚ → List ℚ → Comp)
    (hr : ∀ P z ps, ps.length = z.length → (raoult P z ps).length = z.length) (n : Nat) (hk : Keeps env n) (Pset : ℚ)
    (m : String) (Pg : Option ℚ) (T : ℚ) (z : List ℚ) (hz : z.length = n) (st : State) (hs : GlobOk n st.glob) :
    GlobOk n (calcPoint env raoult Pset m Pg T z st).2.glob ∧
      ∀ r, (calcPoint env raoult Pset m Pg T z st).1 = .ok r → r.start.length = n ∧ r.final.length = n := by
  have hset : ∀ g, GlobSet n g → GlobOk n g := by
    rintro g ⟨c, rfl, hc⟩ c' e
    cases e
    exact hc
  unfold calcPoint
  cases hp : psats env T Pset z.length with
  | error e => exact ⟨hs, fun r e => by cases e⟩
  | ok ps =>
    simp only
    have hps : ps.length = z.length := psats_length _ _ _ _ _ hp
    have hst : (startGuess st.glob (raoult (firstP Pg z ps) z ps)).length = n := by
      unfold startGuess
      cases hg : st.glob with
      | none => simp only; rw [hr _ _ _ hps, hz]
      | some c =>
        simp only
        split_ifs
        · rw [hr _ _ _ hps, hz]
        · exact hs c hg
    generalize startGuess st.glob (raoult (firstP Pg z ps) z ps) = start at hst
    have h1 := hk.1 T z start st.tol hz hst
    cases hq : env.prange T z start st.tol with
    | mk r a =>
      rw [hq] at h1
      have hor : GlobSet n (a.or (some start)) := globSet_or (fun c e => h1 c e) ⟨start, rfl, hst⟩
      cases r with
      | error e => exact ⟨hset _ hor, fun r e => by cases e⟩
      | ok t =>
        obtain ⟨lo, hi, est⟩ := t
        cases lo with
        | none => exact ⟨hset _ hor, fun r e => by cases e⟩
        | some lo =>
          cases hi with
          | none => exact ⟨hset _ hor, fun r e => by cases e⟩
          | some hi =>
            simp only
            have h2 := runSolver_glob n (objective env T z st.tol) (fun P g hg => objective_glob env n hk T z hz st.tol P g hg)
              (env.solver m (startP Pg lo hi est) lo hi) _ hor
            cases hrun : runSolver (objective env T z st.tol) (env.solver m (startP Pg lo hi est) lo hi) (a.or (some start)) with
            | mk r g =>
              rw [hrun] at h2
              cases r with
              | error e => exact ⟨hset _ h2, fun r e => by cases e⟩
              | ok P =>
                simp only
                cases env.flagGiven T z P with
                | error e => exact ⟨hset _ h2, fun r e => by cases e⟩
                | ok fg =>
                  simp only
                  cases env.flagSought T start P with
                  | error e => exact ⟨hset _ h2, fun r e => by cases e⟩
                  | ok fs =>
                    simp only
                    have h3 := objective_glob env n hk T z hz (tightenTol st.tol) P g h2
                    cases hobj : objective env T z (tightenTol st.tol) P g with
                    | mk r g' =>
                      rw [hobj] at h3
                      cases r with
                      | error e => exact ⟨hset _ h3, fun r e => by cases e⟩
                      | ok v =>
                        refine ⟨hset _ h3, ?_⟩
                        intro r e
                        cases e
                        obtain ⟨c, e, hc⟩ := h3
                        simp only at e
                        subst e
                        exact ⟨hst, hc⟩

theorem pointJob_row (env : Env) (raoult : Num → List ℚ → List ℚ → Comp)
    (hr : ∀ P z ps, ps.length = z.length → (raoult P z ps).length = z.length) (pick : Result → Comp)
    (hpick : ∀ r : Result, pick r = r.start ∨ pick r = r.final) (fl : Num → Num → List (Parallel.Cell Num))
    (hfl : ∀ a b, ∃ c d, fl a b = [.scal c, .scal d]) (n : Nat) (hk : Keeps env n) (o : Opts) (p : Point)
    (hn : p.given.length = n) (st : State) (hs : GlobOk n st.glob) :
    PointRow n (pointJob env raoult pick fl o p st).1 ∧ GlobOk n (pointJob env raoult pick fl o p st).2.glob := by
  unfold pointJob
  simp only
  split_ifs with h1
  · cases env.psat p.T p.given with
    | ok P => exact ⟨⟨_, _, _, _, _, rfl, by simpa using hn⟩, hs⟩
    | error e => exact ⟨⟨_, _, _, _, _, rfl, by simpa using hn⟩, hs⟩
  · have hs' : GlobOk n (takeMethod o st).2.glob := by
      unfold takeMethod
      cases st.pmethod <;> exact hs
    obtain ⟨c1, c2⟩ := calcPoint_glob env raoult hr n hk o.Pset (takeMethod o st).1 p.Pguess p.T p.given hn (takeMethod o st).2 hs'
    cases hc : calcPoint env raoult o.Pset (takeMethod o st).1 p.Pguess p.T p.given (takeMethod o st).2 with
    | mk r st' =>
      rw [hc] at c1 c2
      cases r with
      | error e => exact ⟨⟨_, _, _, _, _, rfl, by simpa using hn⟩, c1⟩
      | ok r =>
        obtain ⟨c, d, hcd⟩ := hfl r.flagSought r.flagGiven
        simp only [hcd]
        refine ⟨⟨_, _, _, _, _, rfl, ?_⟩, c1⟩
        rcases hpick r with e | e
        · rw [e]; exact (c2 r rfl).1
        · rw [e]; exact (c2 r rfl).2

theorem runBatch_rows (job : Point → State → Out × State) (n : Nat)
    (h : ∀ p st, p.given.length = n → GlobOk n st.glob → PointRow n (job p st).1 ∧ GlobOk n (job p st).2.glob)
    (pts : List Point) (hp : ∀ p ∈ pts, p.given.length = n) (st : State) (hs : GlobOk n st.glob) :
    (runBatch job pts st).1.length = pts.length ∧ ∀ r ∈ (runBatch job pts st).1, PointRow n r := by
  induction pts generalizing st with
  | nil => exact ⟨rfl, fun r hr => by cases hr⟩
  | cons p ps ih =>
    obtain ⟨j1, j2⟩ := h p st (hp p (by simp)) hs
    obtain ⟨i1, i2⟩ := ih (fun q hq => hp q (by simp [hq])) (job p st).2 j2
    refine ⟨by simp [runBatch, i1], ?_⟩
    intro r hr
    have hr' : r = (job p st).1 ∨ r ∈ (runBatch job ps (job p st).2).1 := by
      simpa [runBatch] using hr
    rcases hr' with e | e
    · rw [e]; exact j1
    · exact i2 r e

/-- The numbers of a row of a bubble or dew point. -/
def rowNumbers (r : Out) : List (List Num) := r.map fun c => numbersIn (cell c)

theorem transpose_rows (k : Nat) (hk0 : k ≠ 0) (rows : List Out) (hne : rows ≠ [])
    (h : ∀ r ∈ rows, r.length = k ∧ ∃ v, Parallel.Cell.scal v ∈ r) :
    Parallel.npTranspose rows = (List.range k).map fun b => rows.map fun r => (r[b]?).getD (.scal none) := by
  classical
  let g : Out → Out := fun r => if r.length = k ∧ ∃ v, Parallel.Cell.scal v ∈ r then r else List.replicate k (.scal none)
  have hg : ∀ r ∈ rows, g r = r := by
    intro r hr
    simp only [g]
    rw [if_pos (h r hr)]
  have hk : ∀ r, (g r).length = k := by
    intro r
    simp only [g]
    split_ifs with h
    · exact h.1
    · simp
  have hs : ∀ r, ∃ v, Parallel.Cell.scal v ∈ g r := by
    intro r
    simp only [g]
    split_ifs with h
    · exact h.2
    · exact ⟨none, by simp [hk0]⟩
  have hb := batch_columns (fun r => .ok (g r)) k g (fun _ => rfl) hk hs rows hne
  have hrun : Parallel.runChunk (fun r => .ok (g r)) rows = (.ok rows : Except PyErr (List Out)) := by
    have : ∀ l : List Out, (∀ r ∈ l, g r = r) → Parallel.runChunk (fun r => .ok (g r)) l = (.ok l : Except PyErr (List Out)) := by
      intro l hl
      induction l with
      | nil => rfl
      | cons a l ih =>
        simp only [Parallel.runChunk, ih fun r hr => hl r (by simp [hr]), hl a (by simp)]
    exact this rows hg
  unfold Parallel.serialJob at hb
  rw [hrun] at hb
  simp only [Except.ok.injEq] at hb
  rw [hb]
  apply List.map_congr_left
  intro b _
  apply List.map_congr_left
  intro r hr
  rw [hg r hr]

theorem points_table (n : Nat) (hn : n ≠ 0) (pts : List Point) (hne : pts ≠ []) (hp : ∀ p ∈ pts, p.given.length = n)
    (job : Point → State → Out × State)
    (hjob : ∀ p st, p.given.length = n → GlobOk n st.glob → PointRow n (job p st).1 ∧ GlobOk n (job p st).2.glob) (st : State)
    (hs : GlobOk n st.glob) :
    (∃ d t, bubbleDict (pts.map fun p => some p.T) (pts.map fun p => p.given.map some)
        (Parallel.npTranspose (runBatch job pts st).1) = .ok d ∧ Dispatch.writeThermo "bubble_pressure" d = .ok t ∧
      t.names.map Prod.fst = ["T"] ++ headings "xi" (some n) ++ ["P"] ++ headings "yi" (some n) ++ ["flagl", "flagv", "obj"] ∧
      t.rows = List.zipWith (fun p r => some p.T :: p.given.map some ++ (([0, 1, 3, 2, 4] : List Nat).flatMap fun b =>
        ((rowNumbers r)[b]?).getD [])) pts (runBatch job pts st).1) ∧
    ∃ d t, dewDict (pts.map fun p => some p.T) (pts.map fun p => p.given.map some)
        (Parallel.npTranspose (runBatch job pts st).1) = .ok d ∧ Dispatch.writeThermo "dew_pressure" d = .ok t ∧
      t.names.map Prod.fst = ["T"] ++ headings "xi" (some n) ++ ["P"] ++ headings "yi" (some n) ++ ["flagl", "flagv", "obj"] ∧
      t.rows = List.zipWith (fun p r => some p.T :: ((rowNumbers r)[1]?).getD [] ++ ((rowNumbers r)[0]?).getD [] ++
        p.given.map some ++ (([3, 2, 4] : List Nat).flatMap fun b => ((rowNumbers r)[b]?).getD [])) pts (runBatch job pts st).1 := by
  obtain ⟨hl, hr⟩ := runBatch_rows job n hjob pts hp st hs
  generalize hrows : (runBatch job pts st).1 = rows at hl hr
  have hrne : rows ≠ [] := by
    intro e
    rw [e] at hl
    exact hne (List.length_eq_zero_iff.mp hl.symm)
  rw [transpose_rows 5 (by decide) rows hrne fun r h => by
    obtain ⟨P, l, a, b, c, rfl, -⟩ := hr r h
    exact ⟨rfl, P, by simp⟩]
  let xs := pts.zip rows
  have hxs : xs ≠ [] := by
    intro e
    rcases List.zip_eq_nil_iff.mp e with e | e
    · exact hne e
    · exact hrne e
  have hfst : pts = xs.map Prod.fst := (List.map_fst_zip (by omega)).symm
  have hsnd : rows = xs.map Prod.snd := (List.map_snd_zip (by omega)).symm
  have hin : ∀ z ∈ xs, z.1.given.length = n ∧ PointRow n z.2 := fun z hz =>
    ⟨hp _ (List.of_mem_zip hz).1, hr _ (List.of_mem_zip hz).2⟩
  have hzip : ∀ f : Point → Out → List Num, List.zipWith f pts rows = xs.map fun z => f z.1 z.2 := by
    intro f
    simp only [xs]
    rw [List.map_zip_eq_zipWith]
    rfl
  let c : Nat → Point × Out → Dispatch.Cell Num := fun b z => cell ((z.2[b]?).getD (.scal none))
  have hcols : (List.range 5) = [0, 1, 2, 3, 4] := rfl
  have hnums : ∀ b, b < 5 → ∀ z ∈ xs, numbersIn (c b z) = ((rowNumbers z.2)[b]?).getD [] := by
    intro b hb z hz
    obtain ⟨P, l, a1, a2, a3, e, -⟩ := (hin z hz).2
    simp only [c, rowNumbers, e]
    match b, hb with
    | 0, _ => rfl
    | 1, _ => rfl
    | 2, _ => rfl
    | 3, _ => rfl
    | 4, _ => rfl
  refine ⟨?_, ?_⟩
  · let layout : List (String × Option Nat × (Point × Out → Dispatch.Cell Num)) :=
      [("T", none, fun z => .num (some z.1.T)), ("xi", some n, fun z => .arr (z.1.given.map some)), ("P", none, c 0),
        ("yi", some n, c 1), ("flagl", none, c 3), ("flagv", none, c 2), ("obj", none, c 4)]
    obtain ⟨t1, t2⟩ := c142_table "bubble_pressure" layout (by simp [layout]) xs hxs (by simp [layout, hn]) (by
      intro l hl z hz
      obtain ⟨P, v, a1, a2, a3, e, hv⟩ := (hin z hz).2
      simp only [layout, List.mem_cons, List.not_mem_nil, or_false] at hl
      rcases hl with rfl | rfl | rfl | rfl | rfl | rfl | rfl
      · trivial
      · simpa [Shaped] using (hin z hz).1
      all_goals simp only [c, e]
      · trivial
      · exact hv
      all_goals trivial)
    refine ⟨layout.map fun l => (l.1, xs.map l.2.2), _, ?_, t1, ?_, ?_⟩
    · rw [hcols]
      simp only [List.map_cons, List.map_nil, bubbleDict, dict, numbers, arrays, layout, List.map_map]
      conv_lhs => rw [hsnd, hfst]
      simp only [List.map_map]
      rfl
    · simp [layout, headings, List.map_map, Function.comp_def]
    · rw [hzip]
      apply List.map_congr_left
      intro z hz
      simp only [layout, List.flatMap_cons, List.flatMap_nil, hnums 0 (by omega) z hz, hnums 1 (by omega) z hz,
        hnums 2 (by omega) z hz, hnums 3 (by omega) z hz, hnums 4 (by omega) z hz]
      simp [numbersIn]
  · let layout : List (String × Option Nat × (Point × Out → Dispatch.Cell Num)) :=
      [("T", none, fun z => .num (some z.1.T)), ("xi", some n, c 1), ("P", none, c 0),
        ("yi", some n, fun z => .arr (z.1.given.map some)), ("flagl", none, c 3), ("flagv", none, c 2), ("obj", none, c 4)]
    obtain ⟨t1, t2⟩ := c142_table "dew_pressure" layout (by simp [layout]) xs hxs (by simp [layout, hn]) (by
      intro l hl z hz
      obtain ⟨P, v, a1, a2, a3, e, hv⟩ := (hin z hz).2
      simp only [layout, List.mem_cons, List.not_mem_nil, or_false] at hl
      rcases hl with rfl | rfl | rfl | rfl | rfl | rfl | rfl
      · trivial
      · simp only [c, e]; exact hv
      · simp only [c, e]; trivial
      · simpa [Shaped] using (hin z hz).1
      all_goals simp only [c, e]
      all_goals trivial)
    refine ⟨layout.map fun l => (l.1, xs.map l.2.2), _, ?_, t1, ?_, ?_⟩
    · rw [hcols]
      simp only [List.map_cons, List.map_nil, dewDict, dict, numbers, arrays, layout, List.map_map]
      conv_lhs => rw [hsnd, hfst]
      simp only [List.map_map]
      rfl
    · simp [layout, headings, List.map_map, Function.comp_def]
    · rw [hzip]
      apply List.map_congr_left
      intro z hz
      simp only [layout, List.flatMap_cons, List.flatMap_nil, hnums 0 (by omega) z hz, hnums 1 (by omega) z hz,
        hnums 2 (by omega) z hz, hnums 3 (by omega) z hz, hnums 4 (by omega) z hz]
      simp [numbersIn]

/-- Specification: the line of a bubble point: its temperature and liquid, then pressure, vapor, flags of liquid and vapor, objective. -/
def bubbleLine (p : Point) (r : Out) : List Num :=
  some p.T :: p.given.map some ++ (([0, 1, 3, 2, 4] : List Nat).flatMap fun b => ((rowNumbers r)[b]?).getD [])

/-- Specification: the line of a dew point: its temperature, liquid, pressure, vapor, flags of liquid and vapor, objective. -/
def dewLine (p : Point) (r : Out) : List Num :=
  some p.T :: ((rowNumbers r)[1]?).getD [] ++ ((rowNumbers r)[0]?).getD [] ++
    p.given.map some ++ (([3, 2, 4] : List Nat).flatMap fun b => ((rowNumbers r)[b]?).getD [])

/-- Specification: the names of the columns for bubble and dew points of `n` components. -/
def pointNames (n : Nat) : List String :=
  ["T"] ++ headings "xi" (some n) ++ ["P"] ++ headings "yi" (some n) ++ ["flagl", "flagv", "obj"]

theorem raoultVapor_length (P : Num) (z ps : List ℚ) (h : ps.length = z.length) : (raoultVapor P z ps).length = z.length := by
  simp [raoultVapor, h]

theorem raoultLiquid_length (P : Num) (z ps : List ℚ) (h : ps.length = z.length) : (raoultLiquid P z ps).length = z.length := by
  simp [raoultLiquid, normalise_length, h]

/-- **C142 (bubble points).** Whichever points fail, the table has a line for every point, with its temperature, the composition given
for it, and its results. -/
theorem c142_bubble (env : Env) (o : Opts) (n : Nat) (hn : n ≠ 0) (hk : Keeps env n) (pts : List Point) (hne : pts ≠ [])
    (hp : ∀ p ∈ pts, p.given.length = n) (st : State) (hs : GlobOk n st.glob) :
    ∃ d t, bubbleDict (pts.map fun p => some p.T) (pts.map fun p => p.given.map some)
        (Parallel.npTranspose (runBatch (bubbleJob env o) pts st).1) = .ok d ∧ Dispatch.writeThermo "bubble_pressure" d = .ok t ∧
      t.names.map Prod.fst = pointNames n ∧ t.rows = List.zipWith bubbleLine pts (runBatch (bubbleJob env o) pts st).1 :=
  (points_table n hn pts hne hp (bubbleJob env o) (fun p st h1 h2 => pointJob_row env raoultVapor raoultVapor_length bubbleComp
    (fun _ => .inr rfl) _ (fun a b => ⟨a, b, rfl⟩) n hk o p h1 st h2) st hs).1

/-- **C142 (dew points).** -/
theorem c142_dew (env : Env) (o : Opts) (n : Nat) (hn : n ≠ 0) (hk : Keeps env n) (pts : List Point) (hne : pts ≠ [])
    (hp : ∀ p ∈ pts, p.given.length = n) (st : State) (hs : GlobOk n st.glob) :
    ∃ d t, dewDict (pts.map fun p => some p.T) (pts.map fun p => p.given.map some)
        (Parallel.npTranspose (runBatch (dewJob env o) pts st).1) = .ok d ∧ Dispatch.writeThermo "dew_pressure" d = .ok t ∧
      t.names.map Prod.fst = pointNames n ∧ t.rows = List.zipWith dewLine pts (runBatch (dewJob env o) pts st).1 :=
  (points_table n hn pts hne hp (dewJob env o) (fun p st h1 h2 => pointJob_row env raoultLiquid raoultLiquid_length dewComp
    (fun _ => .inl rfl) _ (fun a b => ⟨b, a, rfl⟩) n hk o p h1 st h2) st hs).2

/-! ### Tables that are lost -/

theorem allColumns_error {α : Type} (out : List (String × List (Dispatch.Cell α)))
    (h : ∃ p ∈ out, ∃ e, Dispatch.columnsOf p.1 p.2 = .error e) : ∃ e, Dispatch.allColumns out = .error e := by
  induction out with
  | nil => simp at h
  | cons a l ih =>
    obtain ⟨k, v⟩ := a
    simp only [Dispatch.allColumns]
    cases hc : Dispatch.columnsOf k v with
    | error e => exact ⟨e, rfl⟩
    | ok c =>
      obtain ⟨p, hp, e, he⟩ := h
      have : p ∈ l := by
        rcases List.mem_cons.mp hp with e' | e'
        · subst e'
          rw [hc] at he
          cases he
        · exact e'
      obtain ⟨e', he'⟩ := ih ⟨p, this, e, he⟩
      exact ⟨e', by simp only [he']⟩

theorem allColumnsObj_error {α : Type} (out : List (String × List (Dispatch.Cell α)))
    (h : ∃ p ∈ out, ∃ e, columnsObj p.1 p.2 = .error e) : ∃ e, allColumnsObj out = .error e := by
  induction out with
  | nil => simp at h
  | cons a l ih =>
    obtain ⟨k, v⟩ := a
    simp only [allColumnsObj]
    cases hc : columnsObj k v with
    | error e => exact ⟨e, rfl⟩
    | ok c =>
      obtain ⟨p, hp, e, he⟩ := h
      have : p ∈ l := by
        rcases List.mem_cons.mp hp with e' | e'
        · subst e'
          rw [hc] at he
          cases he
        · exact e'
      obtain ⟨e', he'⟩ := ih ⟨p, this, e, he⟩
      exact ⟨e', by simp only [he']⟩

theorem write_error {α : Type} (ct : String) (out : List (String × List (Dispatch.Cell α)))
    (h : ∃ p ∈ out, ∃ e, Dispatch.columnsOf p.1 p.2 = .error e) : ∃ e, Dispatch.writeThermo ct out = .error e := by
  obtain ⟨e, he⟩ := allColumns_error out h
  exact ⟨e, by simp only [Dispatch.writeThermo, he]⟩

theorem writeObj_error {α : Type} (ct : String) (out : List (String × List (Dispatch.Cell α)))
    (h : ∃ p ∈ out, ∃ e, columnsObj p.1 p.2 = .error e) : ∃ e, writeObj ct out = .error e := by
  obtain ⟨e, he⟩ := allColumnsObj_error out h
  exact ⟨e, by simp only [writeObj, he]⟩

/-- A quantity that begins with an array of two or more and is a number for another point: no table, from a pool or serially. -/
theorem mixed_lost {α : Type} (ct key : String) (r : List α) (hr : 1 < r.length) (x : α) (rest : List (Dispatch.Cell α))
    (hx : Dispatch.Cell.num x ∈ rest) (out : List (String × List (Dispatch.Cell α))) (ho : (key, .arr r :: rest) ∈ out) :
    (∃ e, Dispatch.writeThermo ct out = .error e) ∧ ∃ e, writeObj ct out = .error e := by
  obtain ⟨vs, ws, rfl⟩ := List.append_of_mem hx
  have h : Dispatch.columnsOf key (.arr r :: (vs ++ .num x :: ws)) = .error .valueError := c87_mixed_rejected key r hr x vs ws
  refine ⟨write_error ct out ⟨_, ho, _, h⟩, writeObj_error ct out ⟨_, ho, .valueError, ?_⟩⟩
  simp only [columnsObj]
  rw [h]

/-- The same beginning with a number: no table from a pool, and serially a column with arrays in its cells. -/
theorem mixed_first {α : Type} (ct key : String) (r : List α) (x : α) (rest : List (Dispatch.Cell α))
    (hr : Dispatch.Cell.arr r ∈ rest) (out : List (String × List (Dispatch.Cell α))) (ho : (key, .num x :: rest) ∈ out) :
    (∃ e, Dispatch.writeThermo ct out = .error e) ∧ columnsObj key (.num x :: rest) = .ok [(key, .num x :: rest)] := by
  refine ⟨write_error ct out ⟨_, ho, .valueError, ?_⟩, rfl⟩
  have : ∀ l : List (Dispatch.Cell α), Dispatch.Cell.arr r ∈ l → Dispatch.allSome Dispatch.Cell.num? l = none := by
    intro l hl
    induction l with
    | nil => simp at hl
    | cons a l ih =>
      cases a with
      | arr b => simp only [Dispatch.allSome, Dispatch.Cell.num?]
      | num y =>
        have : Dispatch.Cell.arr r ∈ l := by simpa using hl
        simp only [Dispatch.allSome, Dispatch.Cell.num?, ih this]
  have h := this (.num x :: rest) (by simp [hr])
  simp only [Dispatch.columnsOf, Dispatch.Cell.size, h]
  simp

theorem activityJob_cases (envD envB : Env) (fl : ℚ → Num → Except PyErr FlashResult) (nc : Nat) (o : Opts) (m : Mode) (p : ActIn)
    (st : State) :
    (activityJob envD envB fl nc o m p st).1 = failedRow nc m p ∨
    ∃ r g ps st', phases envD envB fl o (takeMethod o st).1 m p (takeMethod o st).2 = (.ok r, st') ∧
      activity envD p.T r.P r.xi r.yi = .ok (g, ps) ∧
      (activityJob envD envB fl nc o m p st).1 =
        [.scal (some p.T), .scal r.P, .vec r.xi, .vec r.yi, .scal r.flagv, .scal r.flagl, .scal r.obj, .vec ps, .vec g] := by
  unfold activityJob
  simp only
  cases h : phases envD envB fl o (takeMethod o st).1 m p (takeMethod o st).2 with
  | mk r st' =>
    cases r with
    | error e => exact .inl rfl
    | ok r =>
      simp only
      cases ha : activity envD p.T r.P r.xi r.yi with
      | error e => exact .inl rfl
      | ok gp => exact .inr ⟨r, gp.1, gp.2, st', rfl, ha, rfl⟩

theorem activityJob_shape (envD envB : Env) (fl : ℚ → Num → Except PyErr FlashResult) (nc : Nat) (o : Opts) (m : Mode) (p : ActIn)
    (st : State) : (activityJob envD envB fl nc o m p st).1.length = 9 ∧
      ∃ v, Parallel.Cell.scal v ∈ (activityJob envD envB fl nc o m p st).1 := by
  rcases activityJob_cases envD envB fl nc o m p st with e | ⟨r, g, ps, st', -, -, e⟩
  · rw [e]
    cases m <;> exact ⟨rfl, some p.T, by simp [failedRow]⟩
  · rw [e]
    exact ⟨rfl, some p.T, by simp⟩

theorem activityRows_shape (envD envB : Env) (fl : ℚ → Num → Except PyErr FlashResult) (nc : Nat) (o : Opts) (m : Mode)
    (pts : List ActIn) (st : State) :
    ∀ r ∈ activityRows envD envB fl nc o m pts st, r.length = 9 ∧ ∃ v, Parallel.Cell.scal v ∈ r := by
  induction pts generalizing st with
  | nil => intro r hr; cases hr
  | cons p ps ih =>
    intro r hr
    rcases List.mem_cons.mp hr with e | e
    · rw [e]; exact activityJob_shape envD envB fl nc o m p st
    · exact ih _ r e

/-- The dictionary of activity coefficients, with the saturation pressures and the coefficients as they are in the rows. -/
theorem activity_columns (envD envB : Env) (fl : ℚ → Num → Except PyErr FlashResult) (nc : Nat) (o : Opts) (m : Mode)
    (p : ActIn) (pts : List ActIn) (st : State) :
    ∃ d, activityDict (Parallel.npTranspose (activityRows envD envB fl nc o m (p :: pts) st)) = .ok d ∧
      ("Psat", (activityRows envD envB fl nc o m (p :: pts) st).map fun r => cell ((r[7]?).getD (.scal none))) ∈ d ∧
      ("gamma", (activityRows envD envB fl nc o m (p :: pts) st).map fun r => cell ((r[8]?).getD (.scal none))) ∈ d := by
  have hs := activityRows_shape envD envB fl nc o m (p :: pts) st
  have hne : activityRows envD envB fl nc o m (p :: pts) st ≠ [] := by simp [activityRows]
  generalize activityRows envD envB fl nc o m (p :: pts) st = rows at hs hne
  rw [transpose_rows 9 (by decide) rows hne hs]
  have hr : (List.range 9) = [0, 1, 2, 3, 4, 5, 6, 7, 8] := rfl
  rw [hr]
  refine ⟨_, rfl, ?_, ?_⟩
  · simp [dict, Function.comp_def]
  · simp [dict, Function.comp_def]

/-- Specification: a point whose calculation raises whatever was computed before it. -/
def AlwaysFails (envD envB : Env) (fl : ℚ → Num → Except PyErr FlashResult) (nc : Nat) (o : Opts) (m : Mode) (q : ActIn) : Prop :=
  ∀ st, (activityJob envD envB fl nc o m q st).1 = failedRow nc m q

theorem failed_mem (envD envB : Env) (fl : ℚ → Num → Except PyErr FlashResult) (nc : Nat) (o : Opts) (m : Mode) (q : ActIn)
    (hq : AlwaysFails envD envB fl nc o m q) (pts : List ActIn) (h : q ∈ pts) (st : State) :
    failedRow nc m q ∈ activityRows envD envB fl nc o m pts st := by
  induction pts generalizing st with
  | nil => cases h
  | cons p ps ih =>
    rcases List.mem_cons.mp h with e | e
    · subst e
      simp only [activityRows, hq st]
      simp
    · simp only [activityRows]
      exact List.mem_cons_of_mem _ (ih e _)

theorem failedRow_psat (nc : Nat) (m : Mode) (q : ActIn) :
    (failedRow nc m q)[7]? = some (.scal none) ∧ (failedRow nc m q)[8]? = some (.scal none) := by
  cases m <;> exact ⟨rfl, rfl⟩

/-- **C142 is violated for activity coefficients**: with two or more components, if the first point succeeds and any other point
fails, the whole table is lost, from a pool or serially. -/
theorem c142_violated_activity (envD envB : Env) (fl : ℚ → Num → Except PyErr FlashResult) (nc : Nat) (o : Opts) (m : Mode)
    (p q : ActIn) (pts : List ActIn) (hmem : q ∈ pts) (hq : AlwaysFails envD envB fl nc o m q) (st : State)
    (r : Phases) (g ps : Comp) (st' : State)
    (h1 : phases envD envB fl o (takeMethod o st).1 m p (takeMethod o st).2 = (.ok r, st'))
    (h2 : activity envD p.T r.P r.xi r.yi = .ok (g, ps)) (hps : 1 < ps.length) :
    ∃ d, activityDict (Parallel.npTranspose (activityRows envD envB fl nc o m (p :: pts) st)) = .ok d ∧
      (∃ e, Dispatch.writeThermo "activity_coefficient" d = .error e) ∧ ∃ e, writeObj "activity_coefficient" d = .error e := by
  obtain ⟨d, hd, hcol, -⟩ := activity_columns envD envB fl nc o m p pts st
  refine ⟨d, hd, ?_⟩
  have hjob : activityJob envD envB fl nc o m p st =
      ([.scal (some p.T), .scal r.P, .vec r.xi, .vec r.yi, .scal r.flagv, .scal r.flagl, .scal r.obj, .vec ps, .vec g], st') := by
    unfold activityJob
    simp only [h1, h2]
  have hrows : activityRows envD envB fl nc o m (p :: pts) st =
      [.scal (some p.T), .scal r.P, .vec r.xi, .vec r.yi, .scal r.flagv, .scal r.flagl, .scal r.obj, .vec ps, .vec g] ::
        activityRows envD envB fl nc o m pts st' := by
    simp only [activityRows, hjob]
  rw [hrows, List.map_cons] at hcol
  refine mixed_lost "activity_coefficient" "Psat" ps hps none _ ?_ d hcol
  rw [List.mem_map]
  exact ⟨_, failed_mem envD envB fl nc o m q hq pts hmem st', by rw [(failedRow_psat nc m q).1]; rfl⟩

/-- **C142 is violated for activity coefficients** when the first point fails: from a pool the table is lost if any point succeeds;
serially the column of the coefficients has arrays in its cells. -/
theorem c142_violated_activity_first (envD envB : Env) (fl : ℚ → Num → Except PyErr FlashResult) (nc : Nat) (o : Opts) (m : Mode)
    (q : ActIn) (pts : List ActIn) (hq : AlwaysFails envD envB fl nc o m q) (st : State) (row : Out) (g : Comp)
    (hrow : row ∈ activityRows envD envB fl nc o m pts (activityJob envD envB fl nc o m q st).2)
    (hg : row[8]? = some (.vec g)) :
    ∃ d col, activityDict (Parallel.npTranspose (activityRows envD envB fl nc o m (q :: pts) st)) = .ok d ∧
      (∃ e, Dispatch.writeThermo "activity_coefficient" d = .error e) ∧ ("gamma", col) ∈ d ∧ .arr g ∈ col ∧
      columnsObj "gamma" col = .ok [("gamma", col)] := by
  obtain ⟨d, hd, -, hcol⟩ := activity_columns envD envB fl nc o m q pts st
  have hrows : activityRows envD envB fl nc o m (q :: pts) st = failedRow nc m q ::
      activityRows envD envB fl nc o m pts (activityJob envD envB fl nc o m q st).2 := by
    simp only [activityRows, hq st]
  have hmem : Dispatch.Cell.arr g ∈ (activityRows envD envB fl nc o m pts (activityJob envD envB fl nc o m q st).2).map
      fun r => cell ((r[8]?).getD (.scal none)) := by
    rw [List.mem_map]
    exact ⟨row, hrow, by rw [hg]; rfl⟩
  have hfst : cell (((failedRow nc m q)[8]?).getD (.scal none)) = Dispatch.Cell.num none := by
    rw [(failedRow_psat nc m q).2]
    rfl
  rw [hrows, List.map_cons, hfst] at hcol
  obtain ⟨m1, m2⟩ := mixed_first "activity_coefficient" "gamma" g none _ hmem d hcol
  exact ⟨d, _, hd, m1, hcol, List.mem_cons_of_mem _ hmem, m2⟩

/-- **C142 is violated by `verify_eos`**: with two or more components, if the first point has a vapor density and another has none, the
whole table is lost. -/
theorem c142_violated_verify {α : Type} (P T : α → Num) (z : α → List Num) (dV dL : α → Except PyErr (Num × Num))
    (tests : ℚ → α → Except PyErr (Num × Num × List Num)) (x q : α) (xs : List α) (hq : q ∈ xs) (rho : ℚ) (f f' : Num)
    (r1 r2 : Num) (lp : List Num) (hlp : 1 < lp.length) (h1 : dV x = .ok (some rho, f)) (h2 : tests rho x = .ok (r1, r2, lp))
    (h3 : dV q = .ok (none, f')) (g : α → Out) (hg : ∀ y, verifyJob dV dL tests y = .ok (g y)) :
    ∃ cols d, Parallel.serialJob (verifyJob dV dL tests) (x :: xs) = .ok cols ∧
      verifyDict ((x :: xs).map P) ((x :: xs).map T) ((x :: xs).map z) cols = .ok d ∧
      (∃ e, Dispatch.writeThermo "verify_eos" d = .error e) ∧ ∃ e, writeObj "verify_eos" d = .error e := by
  have hshape : ∀ y, ∃ v1 v2 fv pv l1 l2 fl pl, g y = [.scal v1, .scal v2, .scal fv, pv, .scal l1, .scal l2, .scal fl, pl] ∧
      (∀ f, dV y = .ok (none, f) → pv = .scal none) ∧
      ∀ rho f r1 r2 lp, dV y = .ok (some rho, f) → tests rho y = .ok (r1, r2, lp) → pv = .vec lp := by
    intro y
    have hy := hg y
    have hph : ∀ d : α → Except PyErr (Num × Num), ∀ t, verifyPhase d tests y = .ok t →
        ∃ a b c pv, t = (.scal a, .scal b, .scal c, pv) ∧ (∀ f, d y = .ok (none, f) → pv = .scal none) ∧
        ∀ rho f r1 r2 lp, d y = .ok (some rho, f) → tests rho y = .ok (r1, r2, lp) → pv = .vec lp := by
      intro d t ht
      unfold verifyPhase at ht
      cases hd : d y with
      | error e => simp [hd, bind, Except.bind] at ht
      | ok rf =>
        obtain ⟨rho, f⟩ := rf
        cases rho with
        | none =>
          simp only [hd, bind, Except.bind, pure, Except.pure, Except.ok.injEq] at ht
          subst ht
          exact ⟨_, _, _, _, rfl, fun _ _ => rfl, fun _ _ _ _ _ h => by cases h⟩
        | some rho =>
          cases hte : tests rho y with
          | error e => simp [hd, hte, bind, Except.bind] at ht
          | ok u =>
            simp only [hd, hte, bind, Except.bind, pure, Except.pure, Except.ok.injEq] at ht
            subst ht
            refine ⟨_, _, _, _, rfl, fun _ h => (by cases h), ?_⟩
            intro rho' f' r1 r2 lp h h'
            cases h
            rw [hte] at h'
            cases h'
            rfl
    unfold verifyJob at hy
    cases hv : verifyPhase dV tests y with
    | error e => simp [hv, bind, Except.bind] at hy
    | ok tv =>
      cases hl : verifyPhase dL tests y with
      | error e => simp [hv, hl, bind, Except.bind] at hy
      | ok tl =>
        obtain ⟨a, b, c, pv, rfl, k1, k2⟩ := hph dV tv hv
        obtain ⟨a', b', c', pl, rfl, -, -⟩ := hph dL tl hl
        simp only [hv, hl, bind, Except.bind, pure, Except.pure, Except.ok.injEq] at hy
        exact ⟨a, b, c, pv, a', b', c', pl, hy.symm, k1, k2⟩
  have hb := batch_columns (verifyJob dV dL tests) 8 g hg
    (fun y => by obtain ⟨_, _, _, _, _, _, _, _, e, -⟩ := hshape y; rw [e]; rfl)
    (fun y => by obtain ⟨v1, _, _, _, _, _, _, _, e, -⟩ := hshape y; exact ⟨v1, by rw [e]; simp⟩) (x :: xs) (by simp)
  have hr : (List.range 8) = [0, 1, 2, 3, 4, 5, 6, 7] := rfl
  rw [hr] at hb
  refine ⟨_, _, hb, rfl, ?_⟩
  obtain ⟨v1, v2, fv, pv, l1, l2, fl, pl, e, -, k2⟩ := hshape x
  have hpv : pv = .vec lp := k2 rho f r1 r2 lp h1 h2
  obtain ⟨v1', v2', fv', pv', l1', l2', fl', pl', e', k1, -⟩ := hshape q
  have hpv' : pv' = .scal none := k1 f' h3
  refine mixed_lost "verify_eos" "log_phivi" lp hlp none (xs.map fun y => cell (((g y)[3]?).getD (.scal none))) ?_ _ ?_
  · rw [List.mem_map]
    exact ⟨q, hq, by rw [e', hpv']; rfl⟩
  · simp only [dict, List.map_cons, e, hpv, List.map_map]
    simp [cell, Function.comp_def]

/-- **C142** (names): the columns of the tables of activity coefficients and of the consistency test, in the order of the file.  Each
result stands under its own name, and liquid comes before vapor among the flags of the former. -/
theorem c142_names (P T : List Num) (z : List (List Num)) (T' P' xi yi fv fl obj ps g v1 v2 pv l1 l2 pl : List (Parallel.Cell Num)) :
    activityDict [T', P', xi, yi, fv, fl, obj, ps, g] =
      .ok [("T", T'.map cell), ("xi", xi.map cell), ("P", P'.map cell), ("yi", yi.map cell), ("flagl", fl.map cell), ("flagv", fv.map cell),
        ("obj", obj.map cell), ("Psat", ps.map cell), ("gamma", g.map cell)] ∧
    verifyDict P T z [v1, v2, fv, pv, l1, l2, fl, pl] =
      .ok [("P", P.map .num), ("T", T.map .num), ("xi", z.map .arr), ("residual_v1", v1.map cell), ("residual_v2", v2.map cell),
        ("flagv", fv.map cell), ("log_phivi", pv.map cell), ("residual_l1", l1.map cell), ("residual_l2", l2.map cell),
        ("flagl", fl.map cell), ("log_phili", pl.map cell)] := by
  simp [activityDict, verifyDict, dict, numbers, arrays, cell, Function.comp_def]

/-- **C142** (another number of results): the results of a batch are unpacked into names, so that any other number of them is a
`ValueError`; in particular there is no table for no points. -/
theorem c142_unpack (comp rho phi flag : String) (P T : List Num) (z : List (List Num)) (cols : List (List (Parallel.Cell Num))) :
    (cols.length ≠ 5 → bubbleDict T z cols = .error .valueError ∧ dewDict T z cols = .error .valueError ∧
      flashDict T P cols = .error .valueError) ∧
    (cols.length ≠ 3 → saturationDict T cols = .error .valueError ∧ propertyDict comp rho phi flag P T z cols = .error .valueError ∧
      solubilityDict P T z cols = .error .valueError) ∧
    (cols.length ≠ 8 → verifyDict P T z cols = .error .valueError) ∧
    (cols.length ≠ 9 → activityDict cols = .error .valueError) := by
  refine ⟨fun h => ⟨?_, ?_, ?_⟩, fun h => ⟨?_, ?_, ?_⟩, fun h => ?_, fun h => ?_⟩
  · unfold bubbleDict; split <;> simp_all
  · unfold dewDict; split <;> simp_all
  · unfold flashDict; split <;> simp_all
  · unfold saturationDict; split <;> simp_all
  · unfold propertyDict; split <;> simp_all
  · unfold solubilityDict; split <;> simp_all
  · unfold verifyDict; split <;> simp_all
  · unfold activityDict; split <;> simp_all

example : activityDict [] = .error .valueError ∧ saturationDict [some 300] [[], []] = .error .valueError :=
  ⟨(c142_unpack "" "" "" "" [] [] [] []).2.2.2 (by decide), ((c142_unpack "" "" "" "" [] [some 300] [] [[], []]).2.1 (by decide)).1⟩

/-- **C142** (columns of different lengths): two columns of numbers that differ in length are refused, as are no columns at all. -/
theorem c142_ragged {α : Type} (ct k k' : String) (x y : α) (l l' : List α) (h : l.length ≠ l'.length) :
    writeObj ct [(k, (x :: l).map .num), (k', (y :: l').map .num)] = .error .valueError ∧
      writeObj (α := α) ct [] = .error .valueError := by
  constructor
  · simp only [writeObj, allColumnsObj, columnsObj, List.map_cons]
    simp [Ne.symm h]
  · rfl

example : writeObj "flash" [("T", [Dispatch.Cell.num (300 : ℚ)]), ("P", [.num 1, .num 2])] = .error .valueError :=
  (c142_ragged "flash" "T" "P" 300 1 [] [2] (by decide)).1

/-! ### Fugacity coefficients of a point without a density -/

/-- What `calc_vapor_fugacity_coefficient` or `calc_liquid_fugacity_coefficient` gives to the job. -/
def asCore (r : Except PyErr (List (Option ℚ) × Option ℚ × ℕ)) : Except PyErr (List Num × Num × Num) :=
  match r with
  | .error e => .error e
  | .ok (phi, rho, flag) => .ok (phi, rho, some (flag : ℚ))

theorem allColumns_mem {α : Type} (out : List (String × List (Dispatch.Cell α))) (cs : List (String × List α))
    (h : Dispatch.allColumns out = .ok cs) (p : String × List (Dispatch.Cell α)) (hp : p ∈ out) :
    ∃ c, Dispatch.columnsOf p.1 p.2 = .ok c ∧ ∀ d ∈ c, d ∈ cs := by
  induction out generalizing cs with
  | nil => cases hp
  | cons a l ih =>
    obtain ⟨k, v⟩ := a
    simp only [Dispatch.allColumns] at h
    cases hc : Dispatch.columnsOf k v with
    | error e => simp only [hc] at h; cases h
    | ok c =>
      simp only [hc] at h
      cases hl : Dispatch.allColumns l with
      | error e => simp only [hl] at h; cases h
      | ok cl =>
        simp only [hl, Except.ok.injEq] at h
        subst h
        rcases List.mem_cons.mp hp with e | e
        · subst e
          exact ⟨c, hc, fun d hd => by simp [hd]⟩
        · obtain ⟨c', h1, h2⟩ := ih cl hl e
          exact ⟨c', h1, fun d hd => by simp [h2 d hd]⟩

theorem allColumnsObj_mem {α : Type} (out : List (String × List (Dispatch.Cell α))) (cs : List (String × List (Dispatch.Cell α)))
    (h : allColumnsObj out = .ok cs) (p : String × List (Dispatch.Cell α)) (hp : p ∈ out) :
    ∃ c, columnsObj p.1 p.2 = .ok c ∧ ∀ d ∈ c, d ∈ cs := by
  induction out generalizing cs with
  | nil => cases hp
  | cons a l ih =>
    obtain ⟨k, v⟩ := a
    simp only [allColumnsObj] at h
    cases hc : columnsObj k v with
    | error e => simp only [hc] at h; cases h
    | ok c =>
      simp only [hc] at h
      cases hl : allColumnsObj l with
      | error e => simp only [hl] at h; cases h
      | ok cl =>
        simp only [hl, Except.ok.injEq] at h
        subst h
        rcases List.mem_cons.mp hp with e | e
        · subst e
          exact ⟨c, hc, fun d hd => by simp [hd]⟩
        · obtain ⟨c', h1, h2⟩ := ih cl hl e
          exact ⟨c', h1, fun d hd => by simp [h2 d hd]⟩

/-- Arrays of two lengths, one of them two and none zero: the property has no columns, or one that is too long. -/
theorem columnsOf_lengths (key : String) (n : Nat) (hn0 : n ≠ 0) (hn2 : n ≠ 2) (ls : List (List Num))
    (hall : ∀ l ∈ ls, l.length = n ∨ l.length = 2) (h2 : ∃ l ∈ ls, l.length = 2) (h1 : ∃ l ∈ ls, l.length = n) :
    (∃ e, Dispatch.columnsOf key (ls.map .arr) = .error e) ∨
      ∃ c, Dispatch.columnsOf key (ls.map .arr) = .ok [(key, c)] ∧ ls.length < c.length := by
  have hsome : Dispatch.allSome Dispatch.Cell.arr? (ls.map Dispatch.Cell.arr) = some ls := by
    clear hall h2 h1
    induction ls with
    | nil => rfl
    | cons a l ih => simp only [List.map_cons, Dispatch.allSome, Dispatch.Cell.arr?, ih]
  cases ls with
  | nil => obtain ⟨l, hl, -⟩ := h2; cases hl
  | cons a l =>
    rw [List.map_cons] at hsome
    simp only [List.map_cons, Dispatch.columnsOf, Dispatch.Cell.size, hsome]
    by_cases ha : 1 < a.length
    · left
      have : ¬ (a :: l).all (fun r => decide (r.length = a.length)) = true := by
        rw [List.all_eq_true]
        intro hc
        obtain ⟨u, hu, eu⟩ := h2
        obtain ⟨w, hw, ew⟩ := h1
        have c1 := of_decide_eq_true (hc u hu)
        have c2 := of_decide_eq_true (hc w hw)
        omega
      rw [if_pos ha]
      exact ⟨.valueError, if_neg this⟩
    · right
      rw [if_neg ha]
      refine ⟨_, rfl, ?_⟩
      have hn1 : n = 1 := by
        rcases hall a (by simp) with e | e <;> omega
      have hge : ∀ ks : List (List Num), (∀ k ∈ ks, k.length = n ∨ k.length = 2) → ks.length ≤ ks.flatten.length := by
        intro ks hk
        induction ks with
        | nil => simp
        | cons k ks ih =>
          have h1 := ih fun x hx => hk x (by simp [hx])
          have h2 := hk k (by simp)
          simp only [List.flatten_cons, List.length_append, List.length_cons]
          omega
      obtain ⟨u, hu, eu⟩ := h2
      obtain ⟨s, t, est⟩ := List.append_of_mem hu
      have hs := hge s fun k hk => hall k (by rw [est]; simp [hk])
      have ht := hge t fun k hk => hall k (by rw [est]; simp [hk])
      rw [est]
      simp only [List.flatten_append, List.flatten_cons, List.length_append, List.length_cons, eu]
      omega

theorem short_lost (ct k0 key : String) (v0 : List Num) (v : List (Dispatch.Cell Num)) (hv : v0 ≠ []) (he : ∃ l r, v = .arr l :: r)
    (rest : List (String × List (Dispatch.Cell Num))) (hm : (key, v) ∈ rest)
    (h : (∃ e, Dispatch.columnsOf key v = .error e) ∨ ∃ c, Dispatch.columnsOf key v = .ok [(key, c)] ∧ v0.length < c.length) :
    (∃ e, Dispatch.writeThermo ct ((k0, v0.map .num) :: rest) = .error e) ∧
      ∃ e, writeObj ct ((k0, v0.map .num) :: rest) = .error e := by
  obtain ⟨l, r, rfl⟩ := he
  have hobjE : ∀ e, Dispatch.columnsOf key (.arr l :: r) = .error e → columnsObj key (.arr l :: r) = .error e := by
    intro e h
    simp only [columnsObj]
    rw [h]
  have hobj : ∀ cs, Dispatch.columnsOf key (.arr l :: r) = .ok cs →
      columnsObj key (.arr l :: r) = .ok (cs.map fun c => (c.1, c.2.map .num)) := by
    intro cs h
    simp only [columnsObj]
    rw [h]
  rcases h with ⟨e, h⟩ | ⟨c, h, hc⟩
  · exact ⟨write_error ct _ ⟨_, List.mem_cons_of_mem _ hm, e, h⟩,
      writeObj_error ct _ ⟨_, List.mem_cons_of_mem _ hm, e, hobjE e h⟩⟩
  · have hnum : Dispatch.columnsOf k0 (v0.map Dispatch.Cell.num) = .ok [(k0, v0)] := by
      have hsome : Dispatch.allSome Dispatch.Cell.num? (v0.map Dispatch.Cell.num) = some v0 := by
        clear hv hc
        induction v0 with
        | nil => rfl
        | cons a l ih => simp only [List.map_cons, Dispatch.allSome, Dispatch.Cell.num?, ih]
      cases v0 with
      | nil => exact absurd rfl hv
      | cons a l =>
        rw [List.map_cons] at hsome
        simp [Dispatch.columnsOf, Dispatch.Cell.size, hsome]
    constructor
    · unfold Dispatch.writeThermo
      simp only [Dispatch.allColumns, hnum]
      cases hr : Dispatch.allColumns rest with
      | error e => exact ⟨e, rfl⟩
      | ok cs =>
        obtain ⟨c', h1, h2⟩ := allColumns_mem rest cs hr _ hm
        rw [h] at h1
        cases h1
        have hmem := h2 (key, c) (by simp)
        simp only [List.cons_append, List.nil_append]
        rw [if_neg]
        · exact ⟨_, rfl⟩
        · rw [List.all_eq_true]
          intro hall
          have := of_decide_eq_true (hall _ hmem)
          simp only at this
          omega
    · have hnumO : columnsObj k0 (v0.map Dispatch.Cell.num) = .ok [(k0, v0.map .num)] := by
        cases v0 with
        | nil => exact absurd rfl hv
        | cons a l => rfl
      unfold writeObj
      simp only [allColumnsObj, hnumO]
      cases hr : allColumnsObj rest with
      | error e => exact ⟨e, rfl⟩
      | ok cs =>
        obtain ⟨c', h1, h2⟩ := allColumnsObj_mem rest cs hr _ hm
        rw [hobj _ h] at h1
        cases h1
        have hmem := h2 (key, c.map .num) (by simp)
        simp only [List.cons_append, List.nil_append]
        rw [if_neg]
        · exact ⟨_, rfl⟩
        · rw [List.all_eq_true]
          intro hall
          have := of_decide_eq_true (hall _ hmem)
          simp only [List.length_map] at this
          omega

/-- **C142 is violated by the properties of a phase**: a point for which no density is found has two NaN as coefficients, however many
components there are; unless there are two, the whole table is lost when any other point has its coefficients. The density and flag
of a point are `s x`, and `fug` is the fugacity coefficient of the equation of state. -/
theorem c142_violated_properties {α : Type} (nc : Nat) (h0 : nc ≠ 0) (h2 : nc ≠ 2) (comp rho phi flag : String) (P T : α → Num)
    (z : α → List Num) (fug : α → Option ℚ → Except PyErr (List (Option ℚ))) (s : α → PhaseDensity.Res ℚ)
    (hf : ∀ x o l, fug x o = .ok l → l.length = nc) (liquid : Bool) (xs : List α) (p q : α) (hp : p ∈ xs) (hq : q ∈ xs)
    (h3 : (s q).2 = 3) (hn3 : (s p).2 ≠ 3) :
    ∃ cols d, Parallel.serialJob (propertyJob nc fun x => asCore (if liquid then PhaseDensity.liquidFugacity (fug x) (s x)
        else PhaseDensity.vaporFugacity nc (fug x) (s x))) xs = .ok cols ∧
      propertyDict comp rho phi flag (xs.map P) (xs.map T) (xs.map z) cols = .ok d ∧
      (∃ e, Dispatch.writeThermo "properties" d = .error e) ∧ ∃ e, writeObj "properties" d = .error e := by
  generalize hcore : (fun x => asCore (if liquid then PhaseDensity.liquidFugacity (fug x) (s x)
        else PhaseDensity.vaporFugacity nc (fug x) (s x))) = core
  have hx : xs ≠ [] := List.ne_nil_of_mem hp
  have hlen : ∀ x r, core x = .ok r → r.1.length = if (s x).2 = 3 then 2 else nc := by
    intro x r hr
    rw [← hcore] at hr
    by_cases hs : (s x).2 = 3
    · rw [if_pos hs]
      cases liquid
      · simp only [PhaseDensity.vaporFugacity, hs, asCore] at hr
        simp at hr
        rw [← hr]
        rfl
      · simp only [PhaseDensity.liquidFugacity, hs, asCore] at hr
        simp at hr
        rw [← hr]
        rfl
    · rw [if_neg hs]
      cases liquid
      · simp only [PhaseDensity.vaporFugacity, hs, asCore] at hr
        by_cases h4 : (s x).2 = 4
        · simp [h4] at hr
          rw [← hr]
          simp
        · cases hfx : fug x (s x).1 with
          | error e => simp [h4, hfx, bind, Except.bind] at hr
          | ok l =>
            simp [h4, hfx, bind, Except.bind] at hr
            rw [← hr]
            exact hf _ _ _ hfx
      · cases hfx : fug x (s x).1 with
        | error e => simp [PhaseDensity.liquidFugacity, hs, asCore, hfx, bind, Except.bind] at hr
        | ok l =>
          simp [PhaseDensity.liquidFugacity, hs, asCore, hfx, bind, Except.bind] at hr
          rw [← hr]
          exact hf _ _ _ hfx
  have hq3 : ∃ r, core q = .ok r := by
    rw [← hcore]
    cases liquid
    · simp [PhaseDensity.vaporFugacity, h3, asCore]
    · simp [PhaseDensity.liquidFugacity, h3, asCore]
  let res : α → List Num × Num × Num := fun x => match core x with
    | .ok r => r
    | .error _ => (List.replicate nc none, none, some 3)
  have hres : ∀ x, (res x).1.length = nc ∨ (res x).1.length = 2 := by
    intro x
    simp only [res]
    cases h : core x with
    | ok r =>
      simp only
      rw [hlen x r h]
      split_ifs <;> simp
    | error e => simp
  have hjob : ∀ x, propertyJob nc core x = .ok [.scal (res x).2.1, .vec (res x).1, .scal (res x).2.2] := by
    intro x
    simp only [res, propertyJob]
    cases core x <;> rfl
  have hb := batch_columns (propertyJob nc core) 3 _ hjob (fun _ => rfl) (fun x => ⟨(res x).2.1, by simp⟩) xs hx
  have hr : (List.range 3) = [0, 1, 2] := rfl
  rw [hr] at hb
  refine ⟨_, _, hb, rfl, ?_⟩
  have hcol := columnsOf_lengths phi nc h0 h2 (xs.map fun x => (res x).1)
    (fun l hl => by
      obtain ⟨x, -, rfl⟩ := List.mem_map.mp hl
      exact hres x)
    ⟨_, List.mem_map.mpr ⟨q, hq, rfl⟩, by
      obtain ⟨r, hr⟩ := hq3
      have := hlen q r hr
      rw [if_pos h3] at this
      simp only [res, hr]
      exact this⟩
    ⟨_, List.mem_map.mpr ⟨p, hp, rfl⟩, by
      simp only [res]
      cases h : core p with
      | ok r =>
        simp only
        rw [hlen p r h, if_neg hn3]
      | error e => simp⟩
  have := short_lost "properties" "P" phi (xs.map P) ((xs.map fun x => (res x).1).map .arr) (by simpa using hx)
    (by
      cases xs with
      | nil => exact absurd rfl hx
      | cons a l => exact ⟨_, _, rfl⟩)
    [("T", (xs.map T).map .num), (comp, (xs.map z).map .arr), (rho, xs.map fun x => .num (res x).2.1),
      (phi, (xs.map fun x => (res x).1).map .arr), (flag, xs.map fun x => .num (res x).2.2)] (by simp)
    (by simpa using hcol)
  convert this using 3
  · simp [dict, numbers, arrays, cell, Function.comp_def]
  · simp [dict, numbers, arrays, cell, Function.comp_def]

/-! ### C143 -/

/-- Specification: `γ x p = y P` with the numbers of a row if they are known and `p x ≠ 0`; otherwise the coefficient is NaN. -/
def CoefficientOf (P x y p γ : Num) : Prop :=
  match P, x, y, p with
  | some P, some x, some y, some p => if p * x = 0 then γ = none else ∃ c, γ = some c ∧ c * x * p = y * P
  | _, _, _, _ => γ = none

theorem gammas_get (P : Num) (xi yi ps : Comp) (h1 : xi.length = ps.length) (h2 : yi.length = ps.length) (i : Nat) (h : i < ps.length) :
    ∃ γ, (gammas P xi yi ps)[i]? = some γ ∧ CoefficientOf P (xi[i]'(by omega)) (yi[i]'(by omega)) ps[i] γ := by
  have hg : (gammas P xi yi ps)[i]? = some (ndiv (nmul (yi[i]'(by omega)) P) (nmul ps[i] (xi[i]'(by omega)))) := by
    unfold gammas
    rw [List.getElem?_zipWith, List.getElem?_zipWith, List.getElem?_eq_getElem (by omega), List.getElem?_eq_getElem (by omega),
      List.getElem?_eq_getElem (by omega)]
  refine ⟨_, hg, ?_⟩
  generalize (xi[i]'(by omega)) = x
  generalize (yi[i]'(by omega)) = y
  generalize ps[i] = p
  cases P <;> cases x <;> cases y <;> cases p <;> simp only [CoefficientOf, nmul, ndiv, Option.bind_none, Option.map_none,
    Option.bind_some, Option.map_some]
  rename_i P x y p
  by_cases hz : p * x = 0
  · rw [if_pos hz]
    simp [qdiv, hz]
  · rw [if_neg hz]
    refine ⟨y * P / (p * x), by simp [qdiv, hz], ?_⟩
    rw [mul_assoc, mul_comm x p, div_mul_cancel₀ _ hz]

theorem activity_ok (env : Env) (T : ℚ) (P : Num) (xi yi g ps : Comp) (h : activity env T P xi yi = .ok (g, ps)) :
    purePressures env T xi.length = .ok ps ∧ yi.length = xi.length ∧ ps.length = xi.length ∧ g = gammas P xi yi ps := by
  unfold activity at h
  cases hp : purePressures env T xi.length with
  | error e => simp only [hp] at h; cases h
  | ok ps' =>
    simp only [hp] at h
    split_ifs at h with hl
    cases h
    have : ps.length = xi.length := by
      unfold purePressures at hp
      have := chunk_length _ _ _ hp
      simpa using this
    exact ⟨rfl, hl, this, rfl⟩

/-- **C143.** In every row that is not a failed one, each coefficient satisfies `γ_i x_i Psat_i = y_i P` with the pressure, the
compositions and the saturation pressures of the same row, and is NaN if one of them is, or if `x_i Psat_i` is zero; the saturation
pressures are those of the pure components at the temperature of the row. -/
theorem c143_definition (envD envB : Env) (fl : ℚ → Num → Except PyErr FlashResult) (nc : Nat) (o : Opts) (m : Mode) (p : ActIn)
    (st : State) (h : (activityJob envD envB fl nc o m p st).1 ≠ failedRow nc m p) :
    ∃ P xi yi fv fl' ob ps g, (activityJob envD envB fl nc o m p st).1 =
        [.scal (some p.T), .scal P, .vec xi, .vec yi, fv, fl', ob, .vec ps, .vec g] ∧
      xi.length = ps.length ∧ yi.length = ps.length ∧ g.length = ps.length ∧
      (∀ i (hi : i < ps.length), envD.psat p.T ((List.range ps.length).map fun j => if j = i then 1 else 0) = .ok ps[i]) ∧
      ∀ (i : Nat) (x y q γ : Num), xi[i]? = some x → yi[i]? = some y → ps[i]? = some q → g[i]? = some γ → CoefficientOf P x y q γ := by
  rcases activityJob_cases envD envB fl nc o m p st with e | ⟨r, g, ps, st', -, ha, e⟩
  · exact absurd e h
  · obtain ⟨h1, h2, h3, h4⟩ := activity_ok _ _ _ _ _ _ _ ha
    refine ⟨r.P, r.xi, r.yi, _, _, _, ps, g, e, h3.symm, by omega, ?_, ?_, ?_⟩
    · rw [h4, gammas]
      simp
      omega
    · intro i hi
      have hnth : ∀ (l : List Nat) (qs : List Num), Parallel.runChunk (fun i => envD.psat p.T (pureComp r.xi.length i)) l = .ok qs →
          ∀ i (hi : i < l.length) (hq : i < qs.length), envD.psat p.T (pureComp r.xi.length l[i]) = .ok qs[i] := by
        intro l
        induction l with
        | nil => intro qs _ i hi; simp at hi
        | cons a l ih =>
          intro qs hq i hi hiq
          simp only [Parallel.runChunk] at hq
          cases ha : envD.psat p.T (pureComp r.xi.length a) with
          | error e => simp only [ha] at hq; cases hq
          | ok b =>
            simp only [ha] at hq
            cases hl : Parallel.runChunk (fun i => envD.psat p.T (pureComp r.xi.length i)) l with
            | error e => simp only [hl] at hq; cases hq
            | ok bs =>
              simp only [hl] at hq
              cases hq
              cases i with
              | zero => simpa using ha
              | succ i => simpa using ih bs hl i (by simpa using hi) (by simpa using hiq)
      have := hnth (List.range r.xi.length) ps h1 i (by simpa using (by omega)) hi
      rw [List.getElem_range] at this
      rw [h3]
      exact this
    · intro i x y q γ e1 e2 e3 e4
      obtain ⟨i3, e3⟩ := List.getElem?_eq_some_iff.mp e3
      obtain ⟨i1, e1⟩ := List.getElem?_eq_some_iff.mp e1
      obtain ⟨i2, e2⟩ := List.getElem?_eq_some_iff.mp e2
      obtain ⟨γ', hγ, hc⟩ := gammas_get r.P r.xi r.yi ps h3.symm (by omega) i i3
      rw [h4, hγ] at e4
      cases e4
      rw [e1, e2, e3] at hc
      exact hc

/-- **C143: the coefficient is one exactly when the component obeys Raoult's law.** -/
theorem c143_raoult (P x y p : ℚ) (γ : Num) (h : CoefficientOf (some P) (some x) (some y) (some p) γ) (hn : p * x ≠ 0) :
    γ = some 1 ↔ y * P = x * p := by
  simp only [CoefficientOf, if_neg hn] at h
  obtain ⟨c, rfl, hc⟩ := h
  constructor
  · intro e
    cases e
    linarith
  · intro e
    have : (c - 1) * (p * x) = 0 := by linarith
    rcases mul_eq_zero.mp this with h | h
    · rw [show c = 1 by linarith]
    · exact absurd h hn

/-- **C143: what is given is returned.** The temperature, and according to the mode the composition of the vapor, of the liquid, the
pressure, or all of these, are in the row as they were given, whether the point failed or not; a failed point has NaN for everything
else except the flags. -/
theorem c143_given (envD envB : Env) (fl : ℚ → Num → Except PyErr FlashResult) (nc : Nat) (o : Opts) (m : Mode) (p : ActIn)
    (st : State) :
    ∃ c1 c2 c3 r, (activityJob envD envB fl nc o m p st).1 = .scal (some p.T) :: c1 :: c2 :: c3 :: r ∧
      match m with
      | .dewPoint => c3 = .vec p.yi
      | .bubblePoint => c2 = .vec p.xi
      | .flash => c1 = .scal p.P
      | .standard => c1 = .scal p.P ∧ c2 = .vec p.xi ∧ c3 = .vec p.yi := by
  rcases activityJob_cases envD envB fl nc o m p st with e | ⟨r, g, ps, st', hp, -, e⟩
  · rw [e]
    cases m
    · exact ⟨_, _, _, _, rfl, rfl⟩
    · exact ⟨_, _, _, _, rfl, rfl⟩
    · exact ⟨_, _, _, _, rfl, rfl⟩
    · exact ⟨_, _, _, _, rfl, rfl, rfl, rfl⟩
  · rw [e]
    refine ⟨_, _, _, _, rfl, ?_⟩
    unfold phases at hp
    cases m with
    | flash =>
      simp only at hp
      cases hf : fl p.T p.P with
      | error e => simp only [hf] at hp; cases hp
      | ok r' => simp only [hf] at hp; cases hp; rfl
    | standard =>
      simp only at hp
      cases hp
      exact ⟨rfl, rfl, rfl⟩
    | dewPoint =>
      simp only at hp
      cases hk : known p.yi with
      | error e => simp only [hk] at hp; cases hp
      | ok y =>
        simp only [hk] at hp
        cases hc : calcPoint envD raoultLiquid o.Pset (takeMethod o st).1 p.Pguess p.T y (takeMethod o st).2 with
        | mk r' s' =>
          simp only [hc] at hp
          cases r' with
          | error e => cases hp
          | ok r' => cases hp; rfl
    | bubblePoint =>
      simp only at hp
      cases hk : known p.xi with
      | error e => simp only [hk] at hp; cases hp
      | ok y =>
        simp only [hk] at hp
        cases hc : calcPoint envB raoultVapor o.Pset (takeMethod o st).1 p.Pguess p.T y (takeMethod o st).2 with
        | mk r' s' =>
          simp only [hc] at hp
          cases r' with
          | error e => cases hp
          | ok r' => cases hp; rfl

/-- **C143: the pressure and the composition found are those of the calculation**: for a bubble point, the ones that
`calc_bubble_pressure` returned. -/
theorem c143_bubble (envD envB : Env) (fl : ℚ → Num → Except PyErr FlashResult) (nc : Nat) (o : Opts) (p : ActIn) (x : List ℚ)
    (hx : p.xi = x.map some) (st st' : State) (r : Result)
    (h : calcPoint envB raoultVapor o.Pset (takeMethod o st).1 p.Pguess p.T x (takeMethod o st).2 = (.ok r, st')) :
    (activityJob envD envB fl nc o .bubblePoint p st).1 = failedRow nc .bubblePoint p ∨
      ∃ ps g, (activityJob envD envB fl nc o .bubblePoint p st).1 = [.scal (some p.T), .scal (some r.P), .vec p.xi, .vec r.final,
        .scal r.flagSought, .scal r.flagGiven, .scal r.obj, .vec ps, .vec g] := by
  rcases activityJob_cases envD envB fl nc o .bubblePoint p st with e | ⟨r', g, ps, st'', hp, -, e⟩
  · exact .inl e
  · right
    have hk : known p.xi = .ok x := by
      rw [hx]
      have : ∀ l : List ℚ, (l.map some).mapM id = some l := by
        intro l
        induction l with
        | nil => rfl
        | cons a l ih => simp [ih]
      simp only [known, this]
    unfold phases at hp
    simp only [hk, h] at hp
    cases hp
    exact ⟨ps, g, e⟩

theorem known_map (l : List ℚ) : known (l.map some) = .ok l := by
  have : ∀ l : List ℚ, (l.map some).mapM id = some l := by
    intro l
    induction l with
    | nil => rfl
    | cons a l ih => simp [ih]
  simp only [known, this]

/-- With Raoult's law for the liquid, all coefficients are equal. -/
theorem raoult_equal (P0 P : Num) (y q : List ℚ) (hl : q.length = y.length) (hq : ∀ a ∈ q, a ≠ 0) :
    ∃ γ : Num, ∀ i (hi : i < y.length), y[i] ≠ 0 →
      (gammas P (raoultLiquid P0 y q) (y.map some) (q.map some))[i]? = some γ := by
  let w := List.zipWith (fun y p => P0.bind fun P => (qdiv y p).map (P * ·)) y q
  let γ : Num := (csum w).bind fun s => if s = 0 then none else P0.bind fun P0 => P.bind fun P => qdiv (P * s) P0
  refine ⟨γ, ?_⟩
  intro i hi hy
  have hi' : i < q.length := by omega
  have hqi : q[i] ≠ 0 := hq _ (List.getElem_mem _)
  have hw : w[i]? = some (P0.bind fun P => some (P * (y[i] / q[i]))) := by
    simp only [w]
    rw [List.getElem?_zipWith, List.getElem?_eq_getElem hi, List.getElem?_eq_getElem hi']
    simp [qdiv, hqi]
  have hx : (raoultLiquid P0 y q)[i]? = some ((csum w).bind fun s => if s = 0 then none else
      P0.bind fun P => some (P * (y[i] / q[i]) / s)) := by
    have hrw : raoultLiquid P0 y q = normalise w := rfl
    rw [hrw]
    unfold normalise
    cases csum w with
    | none => simp only [List.getElem?_map, hw]; rfl
    | some s =>
      simp only [List.getElem?_map, hw]
      cases P0 with
      | none =>
        simp
      | some P0 => simp
  unfold gammas
  rw [List.getElem?_zipWith, List.getElem?_zipWith, List.getElem?_map, List.getElem?_map, List.getElem?_eq_getElem hi,
    List.getElem?_eq_getElem hi', hx]
  simp only [Option.map_some, γ]
  cases csum w with
  | none => cases P <;> rfl
  | some s =>
    by_cases hs : s = 0
    · simp only [hs]
      cases P <;> simp [nmul, ndiv]
    · cases P0 with
      | none => cases P <;> simp [nmul, ndiv]
      | some P0 =>
        cases P with
        | none => simp [nmul, ndiv]
        | some P =>
          simp only [nmul, ndiv, Option.bind_some, hs, if_false, Option.map_some]
          by_cases hP0 : P0 = 0
          · simp [hP0, qdiv]
          · have hd : q[i] * (P0 * (y[i] / q[i]) / s) ≠ 0 :=
              mul_ne_zero hqi (div_ne_zero (mul_ne_zero hP0 (div_ne_zero hy hqi)) hs)
            simp only [qdiv, hd, hP0, if_false]
            congr 2
            field_simp

/-- **C143 is violated for dew points**: the liquid in the row is not the one in equilibrium but the starting value. In a new process
this is Raoult's law, so that the coefficients of all components are equal, whatever the equation of state. -/
theorem c143_violated_dew (envD envB : Env) (fl : ℚ → Num → Except PyErr FlashResult) (nc : Nat) (o : Opts) (p : ActIn) (y : List ℚ)
    (hy : p.yi = y.map some) (q : Nat → ℚ) (hq : ∀ i, q i ≠ 0)
    (hps : ∀ i < y.length, envD.psat p.T ((List.range y.length).map fun j => if j = i then 1 else 0) = .ok (some (q i)))
    (st : State) (hst : st.glob = none) :
    (activityJob envD envB fl nc o .dewPoint p st).1 = failedRow nc .dewPoint p ∨
      ∃ (γ : Num) (l : Out) (g : Comp), (activityJob envD envB fl nc o .dewPoint p st).1 = l ++ [.vec g] ∧
        ∀ i (hi : i < y.length), y[i] ≠ 0 → g[i]? = some γ := by
  rcases activityJob_cases envD envB fl nc o .dewPoint p st with e | ⟨r', g, ps, st'', hp, ha, e⟩
  · exact .inl e
  · right
    unfold phases at hp
    have hk : known p.yi = .ok y := by rw [hy]; exact known_map y
    simp only [hk] at hp
    cases hc : calcPoint envD raoultLiquid o.Pset (takeMethod o st).1 p.Pguess p.T y (takeMethod o st).2 with
    | mk r s' =>
      simp only [hc] at hp
      cases r with
      | error e => cases hp
      | ok r =>
        cases hp
        obtain ⟨qs, lo, hi, est, a, gl, gl', c1, c2, -⟩ := calcPoint_ok _ _ _ _ _ _ _ _ _ _ hc
        have hglob : (takeMethod o st).2.glob = none := by
          unfold takeMethod
          cases st.pmethod <;> exact hst
        rw [c106_psats envD p.T o.Pset y.length (fun i => some (q i)) hps] at c1
        have hqs : qs = (List.range y.length).map q := by
          cases c1
          rfl
        rw [hglob] at c2
        have hstart : r.start = raoultLiquid (firstP p.Pguess y qs) y qs := c2
        obtain ⟨h1, h2, h3, h4⟩ := activity_ok _ _ _ _ _ _ _ ha
        simp only [dewComp] at h1 h2 h3 h4
        have hlen : qs.length = y.length := by rw [hqs]; simp
        have hxl : r.start.length = y.length := by rw [hstart, raoultLiquid_length _ _ _ hlen]
        have hpsq : ps = qs.map some := by
          rw [hxl] at h1
          unfold purePressures at h1
          have hrun : Parallel.runChunk (fun i => envD.psat p.T (pureComp y.length i)) (List.range y.length) =
              .ok ((List.range y.length).map fun i => (some (q i) : Num)) :=
            runChunk_map _ _ _ fun i hi => hps i (by simpa using hi)
          rw [hrun] at h1
          cases h1
          rw [hqs, List.map_map]
          rfl
        obtain ⟨γ, hγ⟩ := raoult_equal (firstP p.Pguess y qs) (some r.P) y qs hlen (by
          intro a ha
          rw [hqs] at ha
          obtain ⟨i, -, rfl⟩ := List.mem_map.mp ha
          exact hq i)
        refine ⟨γ, [.scal (some p.T), .scal (some r.P), .vec (dewComp r), .vec p.yi, .scal r.flagGiven, .scal r.flagSought,
          .scal r.obj, .vec ps], g, e, ?_⟩
        intro i hi hne
        rw [h4, hstart, hy, hpsq]
        exact hγ i hi hne

/-- **C143 is violated above a critical point**: a component above its critical temperature has no coefficient, in any mode, although a
bubble or dew point is found with the pressure set for it. -/
theorem c143_violated_critical (envD envB : Env) (fl : ℚ → Num → Except PyErr FlashResult) (nc : Nat) (o : Opts) (m : Mode) (p : ActIn)
    (st : State) (n i : Nat) (hi : i < n) (hps : envD.psat p.T ((List.range n).map fun j => if j = i then 1 else 0) = .ok none)
    (l : Out) (g : Comp) (hg : g.length = n) (h : (activityJob envD envB fl nc o m p st).1 = l ++ [.vec g]) :
    g[i]? = some none := by
  have hne : (activityJob envD envB fl nc o m p st).1 ≠ failedRow nc m p := by
    intro e
    rw [h] at e
    have := congrArg (fun z : Out => z.getLast?) e
    cases m <;> simp [failedRow] at this
  obtain ⟨P, xi, yi, fv, fl', ob, ps, g', e, l1, l2, l3, c1, c2⟩ := c143_definition envD envB fl nc o m p st hne
  have hgg : g' = g := by
    rw [h] at e
    have := congrArg (fun z : Out => z.getLast?) e
    simpa using this.symm
  subst hgg
  have hpn : ps.length = n := by omega
  have hi' : i < ps.length := by omega
  have hpi : ps[i] = none := by
    have := c1 i hi'
    rw [hpn, hps] at this
    exact (Except.ok.inj this).symm
  have := c2 i (xi[i]'(by omega)) (yi[i]'(by omega)) ps[i] (g'[i]'(by omega)) (List.getElem?_eq_getElem _) (List.getElem?_eq_getElem _)
    (List.getElem?_eq_getElem _) (List.getElem?_eq_getElem _)
  rw [hpi] at this
  rw [List.getElem?_eq_getElem (by omega)]
  unfold CoefficientOf at this
  split at this
  · rename_i e4; cases e4
  · exact congrArg some this

/-! ### Concrete cases -/

/-- An equation of state for two components, above the critical point of the second at temperatures over 400, for which no pressure
range is found at temperature 0. -/
def rowEnv : Env where
  psat := fun T z => if z.head? = some 1 then .ok (some 100) else if T > 400 then .ok none else .ok (some 50)
  prange := fun T _ _ _ => if T = 0 then (.error .valueError, none) else (.ok (some 0, some 200, some 75), none)
  inner := fun _ z _ _ _ => (.ok (z.map some), none)
  objAt := fun _ _ _ P => .ok (some (P - 80))
  flagGiven := fun _ _ _ => .ok (some 1)
  flagSought := fun _ _ _ => .ok (some 0)
  solver := fun _ _ _ _ => .ask 75 fun _ => .done 80

def rowState : State := ⟨none, none, none⟩

def noFlash : ℚ → Num → Except PyErr FlashResult := fun _ _ => .error .valueError

def liquidAt (T : ℚ) : ActIn := ⟨T, none, [some (1 / 4), some (3 / 4)], [none, none], none⟩
def vaporAt (T : ℚ) : ActIn := ⟨T, none, [none, none], [some (1 / 4), some (3 / 4)], none⟩

/-- A bubble point: `γ = (80/100, 80/50)`. -/
example : (activityJob rowEnv rowEnv noFlash 2 {} .bubblePoint (liquidAt 300) rowState).1 =
    [.scal (some 300), .scal (some 80), .vec [some (1 / 4), some (3 / 4)], .vec [some (1 / 4), some (3 / 4)], .scal (some 0),
      .scal (some 1), .scal (some 0), .vec [some 100, some 50], .vec [some (4 / 5), some (8 / 5)]] := by decide +kernel

/-- The dew point in a new process: both coefficients are 7/5, though the liquid at the end of the calculation is another one. -/
example : (activityJob rowEnv rowEnv noFlash 2 {} .dewPoint (vaporAt 300) rowState).1 =
    [.scal (some 300), .scal (some 80), .vec [some (1 / 7), some (6 / 7)], .vec [some (1 / 4), some (3 / 4)], .scal (some 1),
      .scal (some 0), .scal (some 0), .vec [some 100, some 50], .vec [some (7 / 5), some (7 / 5)]] ∧
    (activityJob rowEnv rowEnv noFlash 2 {} .dewPoint (vaporAt 300) rowState).2.glob = some [some (1 / 4), some (3 / 4)] := by
  decide +kernel

/-- Above the critical point of the second component. -/
example : (activityJob rowEnv rowEnv noFlash 2 {} .bubblePoint (liquidAt 500) rowState).1.getLast? =
    some (.vec [some (4 / 5), none]) := by decide +kernel

/-- The point at temperature 0 fails, whatever was computed before it. -/
theorem rowEnv_fails : AlwaysFails rowEnv rowEnv noFlash 2 {} .bubblePoint (liquidAt 0) := by
  intro st
  unfold activityJob
  have hps : psats rowEnv 0 10000000 2 = .ok [100, 50] := by decide +kernel
  have hk : known (liquidAt 0).xi = .ok [1 / 4, 3 / 4] := by decide +kernel
  simp only [phases, hk]
  unfold calcPoint
  have hT : (liquidAt 0).T = 0 := rfl
  simp only [hT, List.length_cons, List.length_nil, Nat.zero_add, Nat.reduceAdd, hps]
  rfl

/-- Two points, of which the second fails: there is no table. -/
example : ∃ d, activityDict (Parallel.npTranspose
      (activityRows rowEnv rowEnv noFlash 2 {} .bubblePoint [liquidAt 300, liquidAt 0] rowState)) = .ok d ∧
    (∃ e, Dispatch.writeThermo "activity_coefficient" d = .error e) ∧ ∃ e, writeObj "activity_coefficient" d = .error e :=
  c142_violated_activity rowEnv rowEnv noFlash 2 {} .bubblePoint (liquidAt 300) (liquidAt 0) [liquidAt 0] (by simp) rowEnv_fails
    rowState ⟨some 80, [some (1 / 4), some (3 / 4)], [some (1 / 4), some (3 / 4)], some 0, some 1, some 0⟩
    [some (4 / 5), some (8 / 5)] [some 100, some 50] ⟨some [some (1 / 4), some (3 / 4)], none, none⟩
    (by decide +kernel) (by decide +kernel) (by decide)

theorem rowEnv_keeps (n : Nat) : Keeps rowEnv n := by
  constructor
  · intro T z c tol _ _ c' h
    simp only [rowEnv] at h
    split_ifs at h
  · intro T z c tol P hz _
    constructor
    · intro new h
      simp only [rowEnv, Except.ok.injEq] at h
      rw [← h]
      simpa using hz
    · intro c' h
      cases h

/-- The same two bubble points as a `bubble_pressure` calculation: a table with two lines, and NaN in the second. -/
example : ∃ d t, bubbleDict [some 300, some 0] [[some (1 / 4), some (3 / 4)], [some (1 / 4), some (3 / 4)]]
      (Parallel.npTranspose (runBatch (bubbleJob rowEnv {}) [⟨300, [1 / 4, 3 / 4], none⟩, ⟨0, [1 / 4, 3 / 4], none⟩] rowState).1) = .ok d ∧
    Dispatch.writeThermo "bubble_pressure" d = .ok t ∧ t.names.map Prod.fst = pointNames 2 ∧ t.rows =
      [[some 300, some (1 / 4), some (3 / 4), some 80, some (1 / 4), some (3 / 4), some 1, some 0, some 0],
       [some 0, some (1 / 4), some (3 / 4), none, none, none, some 3, some 3, none]] := by
  obtain ⟨d, t, h1, h2, h3, h4⟩ := c142_bubble rowEnv {} 2 (by decide) (rowEnv_keeps 2)
    [⟨300, [1 / 4, 3 / 4], none⟩, ⟨0, [1 / 4, 3 / 4], none⟩] (by simp) (by simp) rowState (fun c h => by cases h)
  refine ⟨d, t, h1, h2, h3, h4.trans ?_⟩
  decide +kernel

/-- Names of the columns for two components. -/
example : pointNames 2 = ["T", "xi1", "xi2", "P", "yi1", "yi2", "flagl", "flagv", "obj"] := by decide +kernel

/-- Three flashes of which the first fails. -/
example : [0, 1, 2].map (flashLine (fun x : Nat => if x = 0 then .error .valueError else .ok ⟨[some (1 / 2), some (1 / 2)],
      some 0, [some (1 / 3), some (2 / 3)], some 1, some 0⟩) (fun _ => some 300) (fun x => some (x : ℚ))) =
    [[some 300, none, none, some 0, none, none, some 3, some 3, none],
     [some 300, some (1 / 2), some (1 / 2), some 1, some (1 / 3), some (2 / 3), some 0, some 1, some 0],
     [some 300, some (1 / 2), some (1 / 2), some 2, some (1 / 3), some (2 / 3), some 0, some 1, some 0]] := by decide +kernel

/-- Liquid properties of three components at two points, of which the second has no density: the first two coefficients of the second
are NaN and there is no third, so there is no table. -/
example : ∃ cols d, Parallel.serialJob (propertyJob 3 fun x : Bool => asCore (if true then PhaseDensity.liquidFugacity
      (fun _ => .ok [some 1, some 1, some 1]) (if x then (some 100, 1) else (none, 3))
      else PhaseDensity.vaporFugacity 3 (fun _ => .ok [some 1, some 1, some 1]) (if x then (some 100, 1) else (none, 3)))) [true, false]
      = .ok cols ∧
    propertyDict "xi" "rhol" "phil" "flagl" ([true, false].map fun _ => some 1) ([true, false].map fun _ => some 300)
      ([true, false].map fun _ => [some 1, some 0, some 0]) cols = .ok d ∧
    (∃ e, Dispatch.writeThermo "properties" d = .error e) ∧ ∃ e, writeObj "properties" d = .error e :=
  c142_violated_properties 3 (by decide) (by decide) "xi" "rhol" "phil" "flagl" (fun _ => some 1) (fun _ => some 300)
    (fun _ => [some 1, some 0, some 0]) (fun _ _ => .ok [some 1, some 1, some 1]) (fun x : Bool => if x then (some 100, 1) else (none, 3))
    (fun _ _ l h => by cases h; rfl) true [true, false] true false (by simp) (by simp) rfl (by decide)

/-- With two components there is a table. -/
example : (propertyLine 2 (fun x : Bool => asCore (PhaseDensity.liquidFugacity (fun _ => .ok [some 1, some 1])
      (if x then (some 100, 1) else (none, 3)))) (fun _ => some 1) (fun _ => some 300) (fun _ => [some 1, some 0]) false) =
    [some 1, some 300, some 1, some 0, none, none, none, some 3] := by decide +kernel

/-- `verify_eos` at two points of which the second has no vapor density. -/
example : ∃ cols d, Parallel.serialJob (verifyJob (fun x : Bool => .ok (if x then some 100 else none, some 0)) (fun _ => .ok (some 100, some 1))
      (fun _ _ => .ok (some 0, some 0, [some 1, some 2]))) [true, false] = .ok cols ∧
    verifyDict ([true, false].map fun _ => some 1) ([true, false].map fun _ => some 300) ([true, false].map fun _ => [some 1, some 0]) cols
      = .ok d ∧
    (∃ e, Dispatch.writeThermo "verify_eos" d = .error e) ∧ ∃ e, writeObj "verify_eos" d = .error e :=
  c142_violated_verify (fun _ => some 1) (fun _ => some 300) (fun _ => [some 1, some 0])
    (fun x : Bool => .ok (if x then some 100 else none, some 0)) (fun _ => .ok (some 100, some 1))
    (fun _ _ => .ok (some 0, some 0, [some 1, some 2])) true false [false] (by simp) 100 (some 0) (some 0) (some 0) (some 0)
    [some 1, some 2] (by decide) rfl rfl rfl
    (fun x => if x then [.scal (some 0), .scal (some 0), .scal (some 0), .vec [some 1, some 2], .scal (some 0), .scal (some 0),
        .scal (some 1), .vec [some 1, some 2]]
      else [.scal none, .scal none, .scal (some 0), .scal none, .scal (some 0), .scal (some 0), .scal (some 1), .vec [some 1, some 2]])
    (fun x => by cases x <;> rfl)

end Verif.Props
