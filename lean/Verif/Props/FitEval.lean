import Mathlib.Tactic.ByContra
import Mathlib.Tactic.SplitIfs
import Mathlib.Tactic.Tauto
import Verif.Model.FitEval
import Verif.Props.Constraints
import Verif.Props.DataClasses
import Verif.Props.ObjectiveForm

/-!
# C138: each prediction is compared with the measurement of the same quantity, component and state

The objective of a data set is stated from the outputs of the calculation and the measured columns.
-/

namespace Verif.Props
open Verif Verif.Toolbox Verif.DataClasses Verif.DataFile Verif.FitInput Verif.Objective Verif.FitEval

/-! ## The options of the calculation -/

section
variable {α β : Type}

theorem foldl_erase_entries (ks : List String) (d : PyDict String (Arg α)) :
    (ks.foldl PyDict.erase d).entries = d.entries.filter (fun p => decide (p.1 ∉ ks)) := by
  induction ks generalizing d with
  | nil => simp
  | cons k ks ih =>
    rw [List.foldl_cons, ih]
    simp only [PyDict.erase, List.filter_filter]
    congr 1
    funext p
    by_cases h : p.1 = k <;> simp [h]

theorem foldl_erase_get (ks : List String) (d : PyDict String (Arg α)) (key : String) :
    (ks.foldl PyDict.erase d).get? key = if key ∈ ks then none else d.get? key := by
  induction ks generalizing d with
  | nil => simp
  | cons k ks ih =>
    rw [List.foldl_cons, ih, PyDict.get?_erase]
    by_cases h1 : key ∈ ks
    · simp [h1]
    · by_cases h2 : key = k
      · simp [h2]
      · have : ¬ k = key := fun e => h2 e.symm
        simp [h1, h2, this]

/-- **C138 (conditions).** The calculation receives every entry of the data set unchanged except the measured results: those
are never among its options, and neither are the name and the starting parameters. -/
theorem c138_conditions (b : Built α) (key : String) :
    (key ∈ b.resultKeys ∨ key = "name" ∨ key = "parameters_guess" → (thermoOpts b).get? key = none) ∧
    (key ∉ b.resultKeys → key ≠ "name" → key ≠ "parameters_guess" → (thermoOpts b).get? key = b.vals.get? key) := by
  unfold thermoOpts
  rw [foldl_erase_get]
  constructor
  · intro h
    rw [if_pos]
    rcases h with h | h | h <;> simp [h]
  · intro h h1 h2
    rw [if_neg]
    simp [h, h1, h2]

theorem setL_filter (l : List (String × Arg α)) (key : String) (v : Arg α) (ks : List String) (hk : key ∈ ks) :
    (PyDict.setL l key v).filter (fun p => decide (p.1 ∉ ks)) = l.filter (fun p => decide (p.1 ∉ ks)) := by
  induction l with
  | nil => simp [PyDict.setL, hk]
  | cons p l ih =>
    obtain ⟨a, b⟩ := p
    unfold PyDict.setL
    by_cases h : a = key
    · subst h
      simp [hk]
    · simp only [if_neg h, List.filter_cons, ih]

/-- **C138 (no peeking).** The predictions of a data set do not depend on the values measured for its results: another
value in place of a measured one leaves them as they are. -/
theorem c138_no_peeking (k : Kind) (thermo : Thermo α β) (b : Built α) (key : String) (hk : key ∈ b.resultKeys) (v : Arg α) :
    predictions k thermo { b with vals := b.vals.set key v } = predictions k thermo b := by
  have : thermoOpts { b with vals := b.vals.set key v } = thermoOpts b := by
    have h : (thermoOpts { b with vals := b.vals.set key v }).entries = (thermoOpts b).entries := by
      unfold thermoOpts
      rw [foldl_erase_entries, foldl_erase_entries]
      exact setL_filter _ _ _ _ (List.mem_append_left _ hk)
    exact congrArg PyDict.mk h
  unfold predictions
  rw [this]

/-- **C138 (failure).** When the calculation raises an exception, whatever its kind, or leaves out an output that is needed,
the prediction ends in a `ValueError`. -/
theorem c138_failure (k : Kind) (thermo : Thermo α β) (b : Built α) (names : List String)
    (hn : outputNames k b.calcType = .ok names) :
    (∀ e, thermo b.calcType b.density (thermoOpts b) = .error e → predictions k thermo b = .error .valueError) ∧
    (∀ out name, thermo b.calcType b.density (thermoOpts b) = .ok out → name ∈ names → out.get? name = none →
      predictions k thermo b = .error .valueError) := by
  constructor
  · intro e he
    simp only [predictions, hn, he]
  · intro out name ho hm hnone
    have key : ∀ l : List String, name ∈ l → l.mapM out.get? = none := by
      intro l
      induction l with
      | nil => intro h; cases h
      | cons a l ih =>
        intro h
        rw [List.mapM_cons]
        rcases List.mem_cons.mp h with rfl | h
        · rw [hnone]; rfl
        · rw [ih h]
          cases out.get? a <;> rfl
    simp only [predictions, hn, ho, key names hm]

/-- **C138 is violated for other calculations of TLVE data.** Any calculation other than bubble and dew pressures, such as
temperatures, ends in an unassigned variable, without the calculation being called. -/
theorem c138_violated_calculation (thermo : Thermo α β) (b : Built α) (h1 : b.calcType ≠ "bubble_pressure")
    (h2 : b.calcType ≠ "dew_pressure") : predictions .tlve thermo b = .error .unboundLocal := by
  simp only [predictions, outputNames, if_neg h1, if_neg h2]

/-- Such a data set is accepted by the constructor. -/
example : ∃ b : Built Nat, build exampleConsts .tlve
      ⟨true, 2, PyDict.empty, none, some "bubble_temperature", ⟨[("P", .arr [1, 2]), ("xi", .arr [3, 4])]⟩⟩ = .ok b ∨
    build exampleConsts .tlve
      ⟨true, 2, PyDict.empty, none, some "bubble_temperature", ⟨[("T", .arr [5, 6]), ("P", .arr [1, 2]), ("xi", .arr [3, 4])]⟩⟩ = .ok b := by
  refine ⟨_, Or.inr rfl⟩

end

/-! ## The table of predictions -/

section
variable {β : Type}

theorem widths_total (cs : List (Col β)) (h : ∀ c ∈ cs, 0 < c.points) : ∃ ws, widths cs = .ok ws := by
  induction cs with
  | nil => exact ⟨[], rfl⟩
  | cons c cs ih =>
    obtain ⟨ws, hws⟩ := ih (fun d hd => h d (List.mem_cons_of_mem _ hd))
    have hc := h c (List.mem_cons_self ..)
    match c with
    | .scalars (_ :: _) | .rows (_ :: _) => exact ⟨_, by simp only [widths, Col.width, hws]; rfl⟩
    | .scalars [] | .rows [] => exact absurd hc (Nat.lt_irrefl 0)

/-- The table, when every output has a state. -/
theorem reformat_cons (c : Col β) (cs : List (Col β)) (h : ∀ d ∈ c :: cs, 0 < d.points) :
    reformat (c :: cs) = allColumns c.points (c :: cs) := by
  obtain ⟨ws, hws⟩ := widths_total _ h
  simp only [reformat, hws]

theorem scalars_columns (n : Nat) (l : List β) (h : l.length = n) : (Col.scalars l).toColumns n = .ok [l] := by
  have hb : bcast n l = .ok l := by unfold bcast; rw [if_pos h]
  simp only [Col.toColumns, hb]

theorem rows_columns (n w : Nat) (hn : 0 < n) (l : List (List β)) (hl : l.length = n) (hw : ∀ r ∈ l, r.length = w) :
    (Col.rows l).toColumns n = .ok ((List.range w).map fun j => column j l) := by
  cases l with
  | nil => simp at hl; omega
  | cons r rs =>
    have h1 : r.length = w := hw r (List.mem_cons_self ..)
    simp only [Col.toColumns, h1]
    rw [c79_fillRows w _ hw]
    exact c79_columns n w _ hl hw _ (fun j hj => List.mem_range.mp hj)

/-! ## The measured values -/

/-- Specification: the numbers, one for each state, as an entry of the data set. -/
def asNumbers (l : List β) : Arg (Cell β) := .arr (l.map .num)

/-- Specification: the compositions, one for each state, as an entry of the data set. -/
def asRows (l : List (List β)) : Arg (Cell β) := .arr (l.map .row)

theorem flat_numbers (l : List β) : flat (asNumbers l) = .ok l := by
  unfold flat asNumbers
  simp only
  induction l with
  | nil => rfl
  | cons a l ih =>
    rw [List.map_cons, List.mapM_cons, ih]
    rfl

theorem byComponent_rows (w : Nat) (l : List (List β)) (hne : l ≠ []) (hw : ∀ r ∈ l, r.length = w) :
    byComponent (asRows l) = .ok ((List.range w).map fun j => column j l) := by
  cases l with
  | nil => exact absurd rfl hne
  | cons r rs =>
    have h1 : r.length = w := hw r (List.mem_cons_self ..)
    have h2 : ∀ rs : List (List β), (∀ q ∈ rs, q.length = w) → (rs.map Cell.row).mapM (rowOf w) = some rs := by
      intro rs
      induction rs with
      | nil => intro _; rfl
      | cons q qs ih =>
        intro h
        rw [List.map_cons, List.mapM_cons, ih fun p hp => h p (List.mem_cons_of_mem _ hp)]
        simp only [rowOf, h q (List.mem_cons_self ..), if_true]
        rfl
    simp only [asRows, byComponent, List.map_cons, h1, h2 rs fun q hq => hw q (List.mem_cons_of_mem _ hq)]

variable {K : Type}

/-- Specification: the entry of a data set for a quantity that has one number for each state. -/
def MeasuredNumbers (b : Built (Cell (Ext K))) (key : String) (l : Option (List (Ext K))) : Prop :=
  b.vals.get? key = l.map asNumbers

/-- Specification: the entry of a data set for compositions with `w` fractions. -/
def MeasuredRows (w : Nat) (b : Built (Cell (Ext K))) (key : String) (l : Option (List (List (Ext K)))) : Prop :=
  b.vals.get? key = l.map asRows ∧ ∀ rows, l = some rows → rows ≠ [] ∧ ∀ r ∈ rows, r.length = w

/-- Specification: the weights of a result, one for all states or one for each. -/
def WeightIs (b : Built (Cell (Ext K))) (key : String) (w : Weights K) : Prop :=
  b.weights.get? key = some (match w with
    | .one x => .scalar (.num x)
    | .each l => asNumbers l)

/-- Specification: predicted numbers, measured numbers, weights. -/
def againstNumbers (t : List (Ext K)) (w : Weights K) (measured : Option (List (Ext K))) : Option (List (Series K)) :=
  measured.map fun r => [⟨t, r, w⟩]

/-- Specification: predicted and measured fractions, component by component. -/
def againstRows (m : Nat) (t : List (List (Ext K))) (w : Weights K) (measured : Option (List (List (Ext K)))) :
    Option (List (Series K)) :=
  measured.map fun r => (List.range m).map fun j => ⟨column j t, column j r, w⟩

theorem weightsOf_is (b : Built (Cell (Ext K))) (key : String) (w : Weights K) (h : WeightIs b key w) :
    weightsOf b.weights key = .ok w := by
  unfold WeightIs at h
  cases w with
  | one x => simp only [weightsOf, h]
  | each l =>
    simp only [weightsOf, h]
    have := flat_numbers l
    simp only [asNumbers] at this ⊢
    rw [this]; rfl

theorem single_is (b : Built (Cell (Ext K))) (tab : List (List (Ext K))) (j : Nat) (key : String) (t : List (Ext K))
    (l : Option (List (Ext K))) (w : Weights K) (ht : tab[j]? = some t) (hl : MeasuredNumbers b key l)
    (hw : WeightIs b key w) : single b tab j key = .ok (againstNumbers t w l) := by
  unfold MeasuredNumbers at hl
  cases l with
  | none => simp only [single, hl]; rfl
  | some r => simp only [single, hl, Option.map_some, ht, flat_numbers, weightsOf_is b key w hw]; rfl

theorem pair_is (w : Weights K) (tab : List (List (Ext K))) (t r : Nat → List (Ext K)) (js : List Nat) (off : Nat)
    (h : ∀ i j, js[i]? = some j → tab[off + i]? = some (t j)) :
    pair w tab off (js.map r) = .ok (js.map fun j => ⟨t j, r j, w⟩) := by
  induction js generalizing off with
  | nil => rfl
  | cons j js ih =>
    have h0 := h 0 j rfl
    rw [Nat.add_zero] at h0
    have := ih (off + 1) fun i j' hj => by
      have := h (i + 1) j' (by simpa using hj)
      rwa [show off + (i + 1) = off + 1 + i by omega] at this
    simp only [List.map_cons, pair, h0, this]

theorem components_is (b : Built (Cell (Ext K))) (pre post : List (List (Ext K))) (key : String) (m : Nat)
    (t : List (List (Ext K))) (l : Option (List (List (Ext K)))) (w : Weights K) (off : Nat) (ho : pre.length = off)
    (hl : MeasuredRows m b key l) (hw : WeightIs b key w) :
    components b (pre ++ ((List.range m).map (fun j => column j t) ++ post)) off key = .ok (againstRows m t w l) := by
  obtain ⟨h1, h2⟩ := hl
  cases l with
  | none => simp only [components, h1]; rfl
  | some r =>
    obtain ⟨hne, hr⟩ := h2 r rfl
    simp only [components, h1, Option.map_some, byComponent_rows m r hne hr, weightsOf_is b key w hw]
    rw [pair_is w _ (fun j => column j t) (fun j => column j r)]
    · rfl
    · intro i j hij
      rw [← ho, List.getElem?_append_right (by omega), Nat.add_sub_cancel_left]
      have hi : i < m := by
        by_contra hc
        rw [List.getElem?_eq_none (by simpa using hc)] at hij
        cases hij
      rw [List.getElem?_append_left (by simpa using hi), List.getElem?_map, hij]
      rfl

/-! ## The objective -/

variable [Field K] [LinearOrder K] (ex : K → K) (o : FormOpts K) (comps : Nat) (thermo : Thermo (Cell (Ext K)) (Ext K))
  (b : Built (Cell (Ext K))) (out : PyDict String (Col (Ext K)))

/-- **C138 (bubble points).** The objective of bubble pressure data compares the predicted with the measured pressures, and
for every component the predicted with the measured vapour fractions, state by state, each with the weights of that quantity;
a quantity that was not measured is left out. -/
theorem c138_bubble (hb : b.calcType = "bubble_pressure")
    (ht : thermo b.calcType b.density (thermoOpts b) = .ok out)
    (ps : List (Ext K)) (ys : List (List (Ext K))) (m : Nat)
    (hp : out.get? "P" = some (.scalars ps)) (hy : out.get? "yi" = some (.rows ys)) (hn : ps ≠ [])
    (hl : ys.length = ps.length) (hm : ∀ r ∈ ys, r.length = m)
    (pm : Option (List (Ext K))) (ym : Option (List (List (Ext K)))) (wP wY : Weights K)
    (hpm : MeasuredNumbers b "Plist" pm) (hym : MeasuredRows m b "yilist" ym)
    (hwP : WeightIs b "Plist" wP) (hwY : WeightIs b "yilist" wY) :
    objective ex o .tlve comps thermo b = dataObjective ex o [againstNumbers ps wP pm, againstRows m ys wY ym] := by
  have hpred : predictions .tlve thermo b = .ok [.scalars ps, .rows ys] := by
    simp only [predictions, outputNames, hb, if_true]
    rw [← hb, ht]
    simp [hp, hy]
  have htab : table .tlve [.scalars ps, .rows ys] = .ok ([ps] ++ ((List.range m).map (fun j => column j ys) ++ [])) := by
    have hpos : 0 < ps.length := List.length_pos_iff.mpr hn
    simp only [table]
    rw [reformat_cons _ _ (by simp [Col.points, hl, hpos])]
    simp only [Col.points, allColumns, scalars_columns _ ps rfl, rows_columns _ m hpos ys hl hm]
  have h1 : single b ([ps] ++ ((List.range m).map (fun j => column j ys) ++ [])) 0 "Plist" =
      .ok (againstNumbers ps wP pm) := single_is b _ 0 _ ps pm wP rfl hpm hwP
  have h2 := components_is b [ps] [] "yilist" m ys ym wY 1 rfl hym hwY
  simp only [objective, hpred, bind, Except.bind, htab, comparisons, h1, hb, if_true, h2]

/-- **C138 (dew points).** The same for dew pressures with the liquid fractions. -/
theorem c138_dew (hb : b.calcType = "dew_pressure")
    (ht : thermo b.calcType b.density (thermoOpts b) = .ok out)
    (ps : List (Ext K)) (xs : List (List (Ext K))) (m : Nat)
    (hp : out.get? "P" = some (.scalars ps)) (hx : out.get? "xi" = some (.rows xs)) (hn : ps ≠ [])
    (hl : xs.length = ps.length) (hm : ∀ r ∈ xs, r.length = m)
    (pm : Option (List (Ext K))) (xm : Option (List (List (Ext K)))) (wP wX : Weights K)
    (hpm : MeasuredNumbers b "Plist" pm) (hxm : MeasuredRows m b "xilist" xm)
    (hwP : WeightIs b "Plist" wP) (hwX : WeightIs b "xilist" wX) :
    objective ex o .tlve comps thermo b = dataObjective ex o [againstNumbers ps wP pm, againstRows m xs wX xm] := by
  have hne : ¬ ("dew_pressure" = "bubble_pressure") := by decide
  have hpred : predictions .tlve thermo b = .ok [.scalars ps, .rows xs] := by
    simp only [predictions, outputNames, hb, hne, if_false, if_true]
    rw [← hb, ht]
    simp [hp, hx]
  have htab : table .tlve [.scalars ps, .rows xs] = .ok ([ps] ++ ((List.range m).map (fun j => column j xs) ++ [])) := by
    have hpos : 0 < ps.length := List.length_pos_iff.mpr hn
    simp only [table]
    rw [reformat_cons _ _ (by simp [Col.points, hl, hpos])]
    simp only [Col.points, allColumns, scalars_columns _ ps rfl, rows_columns _ m hpos xs hl hm]
  have h1 : single b ([ps] ++ ((List.range m).map (fun j => column j xs) ++ [])) 0 "Plist" =
      .ok (againstNumbers ps wP pm) := single_is b _ 0 _ ps pm wP rfl hpm hwP
  have h2 := components_is b [ps] [] "xilist" m xs xm wX 1 rfl hxm hwX
  simp only [objective, hpred, bind, Except.bind, htab, comparisons, h1, hb, hne, if_false, if_true, h2]

/-- **C138 (flash).** The objective of flash data compares, for every component, the predicted with the measured vapour
fractions and the predicted with the measured liquid fractions, when the outputs have as many fractions as the equation of
state has components. -/
theorem c138_flash (ht : thermo b.calcType b.density (thermoOpts b) = .ok out)
    (ys xs : List (List (Ext K)))
    (hy : out.get? "yi" = some (.rows ys)) (hx : out.get? "xi" = some (.rows xs)) (hn : ys ≠ [])
    (hl : xs.length = ys.length) (hmy : ∀ r ∈ ys, r.length = comps) (hmx : ∀ r ∈ xs, r.length = comps)
    (ym xm : Option (List (List (Ext K)))) (wY wX : Weights K)
    (hym : MeasuredRows comps b "yilist" ym) (hxm : MeasuredRows comps b "xilist" xm)
    (hwY : WeightIs b "yilist" wY) (hwX : WeightIs b "xilist" wX) :
    objective ex o .flash comps thermo b = dataObjective ex o [againstRows comps ys wY ym, againstRows comps xs wX xm] := by
  have hpred : predictions .flash thermo b = .ok [.rows ys, .rows xs] := by
    simp only [predictions, outputNames, ht]
    simp [hy, hx]
  have hpos : 0 < ys.length := List.length_pos_iff.mpr hn
  have htab : table .flash [.rows ys, .rows xs] = .ok ((List.range comps).map (fun j => column j ys) ++
      ((List.range comps).map (fun j => column j xs) ++ [])) := by
    simp only [table]
    rw [reformat_cons _ _ (by simp [Col.points, hl, hpos])]
    simp only [Col.points, allColumns, rows_columns _ comps hpos ys rfl hmy,
      rows_columns _ comps hpos xs hl hmx]
  have h1 := components_is b [] ((List.range comps).map (fun j => column j xs) ++ []) "yilist" comps ys ym wY 0 rfl hym hwY
  have h2 := components_is b ((List.range comps).map (fun j => column j ys)) [] "xilist" comps xs xm wX comps (by simp) hxm hwX
  rw [List.nil_append] at h1
  simp only [objective, hpred, bind, Except.bind, htab, comparisons, h1, h2]

/-- **C138 (saturation).** The objective of saturation data compares pressures with pressures, liquid densities with liquid
densities and vapour densities with vapour densities. -/
theorem c138_saturation (ht : thermo b.calcType b.density (thermoOpts b) = .ok out)
    (ps ls vs : List (Ext K)) (hp : out.get? "Psat" = some (.scalars ps)) (hl : out.get? "rhol" = some (.scalars ls))
    (hv : out.get? "rhov" = some (.scalars vs)) (hn : ps ≠ []) (hll : ls.length = ps.length) (hvl : vs.length = ps.length)
    (pm lm vm : Option (List (Ext K))) (wP wL wV : Weights K)
    (hpm : MeasuredNumbers b "Psat" pm) (hlm : MeasuredNumbers b "rhol" lm) (hvm : MeasuredNumbers b "rhov" vm)
    (hwP : WeightIs b "Psat" wP) (hwL : WeightIs b "rhol" wL) (hwV : WeightIs b "rhov" wV) :
    objective ex o .saturation comps thermo b =
      dataObjective ex o [againstNumbers ps wP pm, againstNumbers ls wL lm, againstNumbers vs wV vm] := by
  have hpred : predictions .saturation thermo b = .ok [.scalars ps, .scalars ls, .scalars vs] := by
    simp only [predictions, outputNames, ht]
    simp [hp, hl, hv]
  have htab : table .saturation [.scalars ps, .scalars ls, .scalars vs] = .ok [ps, ls, vs] := by
    simp only [table]
    rw [reformat_cons _ _ (by simp [Col.points, hll, hvl, List.length_pos_iff, hn])]
    simp only [Col.points, allColumns, scalars_columns _ ps rfl, scalars_columns _ ls hll,
      scalars_columns _ vs hvl]
    rfl
  have h1 := single_is b [ps, ls, vs] 0 "Psat" ps pm wP rfl hpm hwP
  have h2 := single_is b [ps, ls, vs] 1 "rhol" ls lm wL rfl hlm hwL
  have h3 := single_is b [ps, ls, vs] 2 "rhov" vs vm wV rfl hvm hwV
  simp only [objective, hpred, bind, Except.bind, htab, comparisons, h1, h2, h3]

/-- **C138 (solubility parameters).** The same for solubility parameters and liquid densities. -/
theorem c138_solubility (ht : thermo b.calcType b.density (thermoOpts b) = .ok out)
    (ds ls : List (Ext K)) (hd : out.get? "delta" = some (.scalars ds)) (hl : out.get? "rhol" = some (.scalars ls))
    (hn : ds ≠ []) (hll : ls.length = ds.length) (dm lm : Option (List (Ext K))) (wD wL : Weights K)
    (hdm : MeasuredNumbers b "delta" dm) (hlm : MeasuredNumbers b "rhol" lm)
    (hwD : WeightIs b "delta" wD) (hwL : WeightIs b "rhol" wL) :
    objective ex o .solubility comps thermo b =
      dataObjective ex o [againstNumbers ds wD dm, againstNumbers ls wL lm] := by
  have hpred : predictions .solubility thermo b = .ok [.scalars ds, .scalars ls] := by
    simp only [predictions, outputNames, ht]
    simp [hd, hl]
  have htab : table .solubility [.scalars ds, .scalars ls] = .ok [ds, ls] := by
    simp only [table]
    rw [reformat_cons _ _ (by simp [Col.points, hll, List.length_pos_iff, hn])]
    simp only [Col.points, allColumns, scalars_columns _ ds rfl, scalars_columns _ ls hll]
    rfl
  have h1 := single_is b [ds, ls] 0 "delta" ds dm wD rfl hdm hwD
  have h2 := single_is b [ds, ls] 1 "rhol" ls lm wL rfl hlm hwL
  simp only [objective, hpred, bind, Except.bind, htab, comparisons, h1, h2]

/-- **C138 (liquid densities).** The objective of liquid data compares liquid densities with liquid densities. -/
theorem c138_liquid (ht : thermo b.calcType b.density (thermoOpts b) = .ok out)
    (ls lm : List (Ext K)) (hl : out.get? "rhol" = some (.scalars ls)) (wL : Weights K)
    (hlm : MeasuredNumbers b "rhol" (some lm)) (hwL : WeightIs b "rhol" wL) :
    objective ex o .liquid comps thermo b = dataObjective ex o [againstNumbers ls wL (some lm)] := by
  have hpred : predictions .liquid thermo b = .ok [.scalars ls] := by
    simp only [predictions, outputNames, ht]
    simp [hl]
  have h1 := single_is b [ls] 0 "rhol" ls (some lm) wL rfl hlm hwL
  have hc : b.vals.contains "rhol" = true := by
    unfold MeasuredNumbers at hlm
    simp [PyDict.contains, hlm]
  simp only [objective, hpred, bind, Except.bind, table, comparisons, hc, if_true, h1]

/-- **C138 is violated for fugacity coefficients.** They are among the results of liquid data, with a weight of their own, but
the objective does not depend on the measured values. -/
theorem c138_violated_phil (v : Arg (Cell (Ext K))) (hk : "phil" ∈ b.resultKeys) :
    objective ex o .liquid comps thermo { b with vals := b.vals.set "phil" v } =
      objective ex o .liquid comps thermo b := by
  have h1 := c138_no_peeking .liquid thermo b "phil" hk v
  have h2 : (b.vals.set "phil" v).get? "rhol" = b.vals.get? "rhol" := PyDict.get?_set_ne _ _ (by decide)
  simp only [objective, h1, comparisons, single, PyDict.contains, h2]
  rfl

/-- **C138 is violated for liquid data without densities.** The constructor accepts them, each evaluation ends in an
exception. -/
theorem c138_violated_no_density (h : b.vals.get? "rhol" = none) :
    ∃ e, objective ex o .liquid comps thermo b = .error e := by
  have hc : b.vals.contains "rhol" = false := by simp [PyDict.contains, h]
  unfold objective
  cases hp : predictions .liquid thermo b with
  | error e => exact ⟨e, rfl⟩
  | ok cols =>
    simp only [bind, Except.bind]
    cases htab : table .liquid cols with
    | error e => exact ⟨e, rfl⟩
    | ok tab =>
      refine ⟨.keyError, ?_⟩
      simp only [comparisons, hc, Bool.false_eq_true, if_false]

/-- **C138 is violated for a single composition per state.** A composition stored as a number for each state, as for a
file with one row (C129), ends in an exception. -/
theorem c138_violated_flat (l : List (Ext K)) (hne : l ≠ []) (h : b.vals.get? "yilist" = some (asNumbers l)) :
    ∃ e, objective ex o .flash comps thermo b = .error e := by
  unfold objective
  cases hp : predictions .flash thermo b with
  | error e => exact ⟨e, rfl⟩
  | ok cols =>
    simp only [bind, Except.bind]
    cases htab : table .flash cols with
    | error e => exact ⟨e, rfl⟩
    | ok tab =>
      refine ⟨.typeError, ?_⟩
      cases l with
      | nil => exact absurd rfl hne
      | cons x l => simp only [comparisons, components, h, asNumbers, List.map_cons, byComponent, bind, Except.bind]

/-- **C138 (no states).** An output without states ends the evaluation with an error of an index, except for liquid densities. -/
theorem c138_no_states (k : Kind) (hk : k ≠ .liquid) (cols : List (Col (Ext K))) (c : Col (Ext K))
    (hp : predictions k thermo b = .ok cols) (hc : c ∈ cols) (h0 : c.points = 0) :
    objective ex o k comps thermo b = .error .indexError := by
  have hr : reformat cols = .error .indexError := by
    have := c79_no_width cols c hc h0
    simp only [reformat, this]
  have ht : table k cols = .error .indexError := by
    cases k with
    | liquid => exact absurd rfl hk
    | _ => exact hr
  simp only [objective, hp, bind, Except.bind, ht]

/-- **C138 (values of another shape).** Nothing is compared with values of another shape: predicted densities that are not one number
for each state, a composition in place of a measured number, compositions of different lengths, and a missing weight end the
evaluation with these exceptions. -/
theorem c138_shapes :
    (∀ cols, predictions .liquid thermo b = .ok cols → (∀ l, cols ≠ [.scalars l]) →
      objective ex o .liquid comps thermo b = .error .valueError) ∧
    (∀ cols tab pre r post, predictions .tlve thermo b = .ok cols → reformat cols = .ok tab → tab ≠ [] →
      b.vals.get? "Plist" = some (.arr (List.map Cell.num pre ++ .row r :: post)) →
      objective ex o .tlve comps thermo b = .error .typeError) ∧
    (∀ cols tab r pre r' post, predictions .flash thermo b = .ok cols → reformat cols = .ok tab → r'.length ≠ r.length →
      b.vals.get? "yilist" = some (.arr (.row r :: (pre ++ .row r' :: post))) →
      objective ex o .flash comps thermo b = .error .valueError) ∧
    (∀ cols tab l, predictions .tlve thermo b = .ok cols → reformat cols = .ok tab → tab ≠ [] →
      b.vals.get? "Plist" = some (asNumbers l) → b.weights.get? "Plist" = none →
      objective ex o .tlve comps thermo b = .error .keyError) := by
  refine ⟨?_, ?_, ?_, ?_⟩
  · intro cols hp hc
    have ht : table .liquid cols = .error .valueError := by
      match cols, hc with
      | [], _ => rfl
      | [.scalars l], hc => exact absurd rfl (hc l)
      | [.rows l], _ => rfl
      | .scalars _ :: _ :: _, _ => rfl
      | .rows _ :: _ :: _, _ => rfl
    simp only [objective, hp, bind, Except.bind, ht]
  · intro cols tab pre r post hp ht hne hv
    have htab : table .tlve cols = .ok tab := ht
    have hflat : flat (.arr (List.map Cell.num pre ++ .row r :: post)) = (.error .typeError : Except PyErr (List (Ext K))) := by
      clear hv
      simp only [flat]
      induction pre with
      | nil => rfl
      | cons a l ih =>
        simp only [List.map_cons, List.cons_append, List.mapM_cons, ih]
        rfl
    cases tab with
    | nil => exact absurd rfl hne
    | cons t tab =>
      simp only [objective, hp, bind, Except.bind, htab, comparisons, single, hv, hflat, List.getElem?_cons_zero]
  · intro cols tab r pre r' post hp ht hl hv
    have htab : table .flash cols = .ok tab := ht
    have hm : (pre ++ Cell.row r' :: post).mapM (rowOf r.length) = none := by
      clear hv
      induction pre with
      | nil => simp [rowOf, hl]
      | cons a l ih =>
        rw [List.cons_append, List.mapM_cons, ih]
        cases rowOf r.length a <;> rfl
    simp only [objective, hp, bind, Except.bind, htab, comparisons, components, hv, byComponent, hm]
  · intro cols tab l hp ht hne hv hw
    have htab : table .tlve cols = .ok tab := ht
    cases tab with
    | nil => exact absurd rfl hne
    | cons t tab =>
      simp only [objective, hp, bind, Except.bind, htab, comparisons, single, hv, flat_numbers, List.getElem?_cons_zero, weightsOf, hw]

end

/-! ## From the data set as given -/

section
variable {α β : Type}

theorem broadcast_arr (n : Nat) (l l' : List α) (h : Spec.Broadcast n (.arr l) l') (hl : l.length = n) : l' = l := by
  cases h with
  | single a =>
    have : n = 1 := hl.symm
    subst this; rfl
  | full _ _ _ => rfl

/-- **C138 (values as given).** Measured values, compositions and weights with one item for each state reach the objective as
they are, under the name of the result. -/
theorem c138_inputs {K : Type} (c : Consts (Cell (Ext K))) (k : Kind) (i : Input (Cell (Ext K))) (hwf : i.data.WF)
    (b : Built (Cell (Ext K))) (h : build c k i = .ok b) (name : String) (hk : storedAs k name ∈ b.resultKeys)
    (ho : ∀ name', name' ≠ name → storedAs k name' = storedAs k name → i.data.get? name' = none) :
    (∀ l, l.length = b.npoints → i.data.get? name = some (asNumbers l) → MeasuredNumbers b (storedAs k name) (some l)) ∧
    (∀ m l, l ≠ [] → l.length = b.npoints → (∀ r ∈ l, r.length = m) → i.data.get? name = some (asRows l) →
      MeasuredRows m b (storedAs k name) (some l)) ∧
    (∀ w a, w.length = b.npoints → i.data.get? name = some a → i.weights.get? name = some (asNumbers w) →
      WeightIs b (storedAs k name) (.each w)) := by
  have hall : storedAs k name ∈ allKeys k := by
    have hr := c81_results c k i b h
    rw [hr] at hk
    cases k <;> simp only at hk
    · split at hk
      · revert hk; simp [allKeys]; rintro (h | h) <;> simp [h]
      · split at hk
        · revert hk; simp [allKeys]; rintro (h | h) <;> simp [h]
        · revert hk; simp [allKeys]; rintro (h | h | h) <;> simp [h]
    all_goals (revert hk; simp only [allKeys, List.mem_cons, List.not_mem_nil, or_false]; tauto)
  refine ⟨?_, ?_, ?_⟩
  · intro l hl hd
    obtain ⟨l', hb, hg⟩ := c80_values_reach c k i hwf b h name _ hd hall ho
    have := broadcast_arr _ _ _ hb (by simpa using hl)
    rw [this] at hg
    exact hg
  · intro m l hne hl hm hd
    obtain ⟨l', hb, hg⟩ := c80_values_reach c k i hwf b h name _ hd hall ho
    have := broadcast_arr _ _ _ hb (by simpa using hl)
    rw [this] at hg
    exact ⟨hg, fun rows hr => by cases hr; exact ⟨hne, hm⟩⟩
  · intro w a hl hd hw
    obtain ⟨⟨l', hb, hg⟩, -⟩ := c80_weights_follow c k i b h name a _ hd hw hk ho
    have := broadcast_arr _ _ _ hb (by simpa using hl)
    rw [this] at hg
    exact hg

theorem prepared_no_weight (k : Kind) (i : Input α) (hw : ∀ key, i.weights.get? key = none) (key : String) :
    (prepare k i).2.get? key = none := by
  have gen : ∀ (ms : List Move) (s : St α), (∀ key, s.weights.get? key = none) →
      ∀ key, (ms.foldl move s).weights.get? key = none := by
    intro ms
    induction ms with
    | nil => intro s h; exact h
    | cons m ms ih =>
      intro s h
      rw [List.foldl_cons]
      apply ih
      intro key
      rw [move_weights, h m.old, h key]
      simp
  exact gen (moves k) _ hw key

/-- **C138 (weights left out).** Without weights every result has weight 1 in all states. -/
theorem c138_default_weight {K : Type} (c : Consts (Cell (Ext K))) (one : Ext K) (hone : c.weight = .num one) (k : Kind)
    (i : Input (Cell (Ext K))) (b : Built (Cell (Ext K))) (h : build c k i = .ok b)
    (hw : ∀ key, i.weights.get? key = none) (key : String) (hk : key ∈ b.resultKeys) : WeightIs b key (.one one) := by
  obtain ⟨d, w', t, _, _, _, hf, _, _, _, _, hbw, hbr, _⟩ := build_ok c k i b h
  unfold fillWeights at hf
  cases hc : checkLengthDict (prepare k i).2 (resultKeys k) (some b.npoints) with
  | error e => rw [hc] at hf; cases hf
  | ok d =>
    rw [hc] at hf
    simp only at hf
    have hwf := checkLengthDict_WF _ _ _ _ hc
    obtain ⟨n, hn, h2, h3⟩ := c01_accepted _ _ _ _ hc
    have hnone : ∀ key, (updateArr (prepare k i).2 d).get? key = none := by
      intro key
      rw [updateArr_get _ _ hwf, prepared_no_weight k i hw key]
      cases hd : d.get? key with
      | none => rfl
      | some l =>
        obtain ⟨_, a, ha, _⟩ := (h2 key l).mp hd
        rw [prepared_no_weight k i hw key] at ha
        cases ha
    have hsub : key ∈ resultKeys k ∧ (finalWeights k t w').get? key = w'.get? key := by
      rw [hbr] at hk
      cases k with
      | tlve =>
        unfold finalResults at hk
        unfold finalWeights
        simp only at hk ⊢
        by_cases h1 : t = "bubble_pressure"
        · rw [if_pos h1] at hk ⊢
          refine ⟨List.mem_of_mem_erase hk, ?_⟩
          rw [PyDict.get?_erase, if_neg]
          rintro rfl; exact absurd hk (by decide)
        · rw [if_neg h1] at hk ⊢
          by_cases h2 : t = "dew_pressure"
          · rw [if_pos h2] at hk ⊢
            refine ⟨List.mem_of_mem_erase hk, ?_⟩
            rw [PyDict.get?_erase, if_neg]
            rintro rfl; exact absurd hk (by decide)
          · rw [if_neg h2] at hk ⊢; exact ⟨hk, rfl⟩
      | flash => exact ⟨hk, rfl⟩
      | liquid => exact ⟨hk, rfl⟩
      | saturation => exact ⟨hk, rfl⟩
      | solubility => exact ⟨hk, rfl⟩
    unfold WeightIs
    have e1 : w'.get? key = some (.scalar c.weight) := (c02_missing_filled_scalar _ _ _ _ _ hf key).1 hsub.1 (hnone key)
    rw [hbw, hsub.2, e1, hone]

variable {K : Type} [Field K] [LinearOrder K] (ex : K → K) (o : FormOpts K) (comps : Nat)
  (thermo : Thermo (Cell (Ext K)) (Ext K)) (out : PyDict String (Col (Ext K)))

/-- **C138 (bubble points, from the data set).** For bubble pressure data with pressures and vapour compositions, without
weights: the objective compares the pressures as given with the predicted ones and, component by component, the vapour
fractions as given with the predicted ones. -/
theorem c138_bubble_input (c : Consts (Cell (Ext K))) (one : Ext K) (hone : c.weight = .num one) (i : Input (Cell (Ext K)))
    (hwf : i.data.WF) (b : Built (Cell (Ext K))) (h : build c .tlve i = .ok b) (hb : b.calcType = "bubble_pressure")
    (hw : ∀ key, i.weights.get? key = none) (pm : List (Ext K)) (ym : List (List (Ext K))) (m : Nat)
    (hpm : i.data.get? "P" = some (asNumbers pm)) (hym : i.data.get? "yi" = some (asRows ym)) (hne : ym ≠ [])
    (hmm : ∀ r ∈ ym, r.length = m) (hpn : pm.length = b.npoints) (hyn : ym.length = b.npoints)
    (hP : i.data.get? "Plist" = none) (hY : i.data.get? "yilist" = none)
    (ht : thermo b.calcType b.density (thermoOpts b) = .ok out)
    (ps : List (Ext K)) (ys : List (List (Ext K)))
    (hp : out.get? "P" = some (.scalars ps)) (hy : out.get? "yi" = some (.rows ys)) (hn : ps ≠ [])
    (hl : ys.length = ps.length) (hm : ∀ r ∈ ys, r.length = m) :
    objective ex o .tlve comps thermo b = dataObjective ex o
      [some [⟨ps, pm, .one one⟩], some ((List.range m).map fun j => ⟨column j ys, column j ym, .one one⟩)] := by
  have hr : b.resultKeys = ["Plist", "yilist"] := by
    have := c81_results c .tlve i b h
    simpa [hb] using this
  have oP : ∀ name', name' ≠ "P" → storedAs .tlve name' = storedAs .tlve "P" → i.data.get? name' = none := by
    intro name' h1 h2
    have h3 : storedAs .tlve "P" = "Plist" := rfl
    rw [h3] at h2
    unfold storedAs at h2
    split_ifs at h2 <;> first | exact absurd h2 (by decide) | skip
    rw [h2]; exact hP
  have oY : ∀ name', name' ≠ "yi" → storedAs .tlve name' = storedAs .tlve "yi" → i.data.get? name' = none := by
    intro name' h1 h2
    have h3 : storedAs .tlve "yi" = "yilist" := rfl
    rw [h3] at h2
    unfold storedAs at h2
    split_ifs at h2 <;> first | exact absurd h2 (by decide) | skip
    rw [h2]; exact hY
  have e1 := (c138_inputs c .tlve i hwf b h "P" (by rw [hr]; decide) oP).1 pm hpn hpm
  have e2 := (c138_inputs c .tlve i hwf b h "yi" (by rw [hr]; decide) oY).2.1 m ym hne hyn hmm hym
  exact c138_bubble ex o comps thermo b out hb ht ps ys m hp hy hn hl hm (some pm) (some ym) (.one one) (.one one) e1 e2
    (c138_default_weight c one hone .tlve i b h hw "Plist" (by rw [hr]; decide))
    (c138_default_weight c one hone .tlve i b h hw "yilist" (by rw [hr]; decide))

end

/-! ## Data made by the model itself -/

section
variable {K : Type} [Field K] [LinearOrder K] [IsStrictOrderedRing K] (ex : K → K) (o : FormOpts K) (comps : Nat)
  (thermo : Thermo (Cell (Ext K)) (Ext K)) (b : Built (Cell (Ext K))) (out : PyDict String (Col (Ext K)))

omit [IsStrictOrderedRing K] in
theorem perfect_numbers (l w : List K) (hne : l ≠ []) (h0 : ∀ x ∈ l, x ≠ 0) (hw : ∀ x ∈ w, 0 ≤ x)
    (hl : w.length = l.length) :
    Perfect (⟨l.map .fin, l.map .fin, .each (w.map .fin)⟩ : Series K) := by
  refine ⟨List.zipWith (fun x y => ⟨x, x, y⟩) l w, ?_, ?_, ?_⟩
  · cases l with
    | nil => exact absurd rfl hne
    | cons x l => cases w with
      | nil => cases hl
      | cons y w => simp
  · intro p hp
    rw [List.mem_iff_getElem] at hp
    obtain ⟨j, hj, rfl⟩ := hp
    simp only [List.length_zipWith] at hj
    simp only [List.getElem_zipWith]
    exact ⟨h0 _ (List.getElem_mem _), trivial, hw _ (List.getElem_mem _)⟩
  · have h1 : ∀ l w : List K, w.length = l.length →
        (List.zipWith (fun x y => (⟨x, x, y⟩ : Pt K)) l w).map (fun p => (Ext.fin p.t : Ext K)) = l.map .fin ∧
        (List.zipWith (fun x y => (⟨x, x, y⟩ : Pt K)) l w).map (fun p => (Ext.fin p.r : Ext K)) = l.map .fin ∧
        (List.zipWith (fun x y => (⟨x, x, y⟩ : Pt K)) l w).map (fun p => (Ext.fin p.w : Ext K)) = w.map .fin := by
      intro l
      induction l with
      | nil => intro w hw; cases w with
        | nil => simp
        | cons _ _ => cases hw
      | cons x l ih =>
        intro w hw
        cases w with
        | nil => cases hw
        | cons y w =>
          obtain ⟨a, b, c⟩ := ih w (by simpa using hw)
          simp [a, b, c]
    obtain ⟨a, b, c⟩ := h1 l w hl
    rw [a, b, c]

/-- **C138 is violated for data made by the model itself.** When the measured saturation pressures and densities are exactly
those predicted, the objective is not the smallest possible but infinite. -/
theorem c138_violated_recovery
    (hm : o.method = "average-squared-deviation" ∨ o.method = "sum-squared-deviation" ∨
      o.method = "percent-absolute-average-deviation")
    (ht : thermo b.calcType b.density (thermoOpts b) = .ok out)
    (ps ls vs wP wL wV : List K) (hne : ps ≠ [])
    (hp : out.get? "Psat" = some (.scalars (ps.map .fin))) (hl : out.get? "rhol" = some (.scalars (ls.map .fin)))
    (hv : out.get? "rhov" = some (.scalars (vs.map .fin))) (hll : ls.length = ps.length) (hvl : vs.length = ps.length)
    (h0 : ∀ x ∈ ps ++ ls ++ vs, x ≠ 0) (hw0 : ∀ x ∈ wP ++ wL ++ wV, 0 ≤ x)
    (hpm : MeasuredNumbers b "Psat" (some (ps.map .fin))) (hlm : MeasuredNumbers b "rhol" (some (ls.map .fin)))
    (hvm : MeasuredNumbers b "rhov" (some (vs.map .fin)))
    (hwP : WeightIs b "Psat" (.each (wP.map .fin))) (hwL : WeightIs b "rhol" (.each (wL.map .fin)))
    (hwV : WeightIs b "rhov" (.each (wV.map .fin)))
    (hlP : wP.length = ps.length) (hlL : wL.length = ls.length) (hlV : wV.length = vs.length) :
    objective ex o .saturation comps thermo b = .ok .pinf := by
  rw [c138_saturation ex o comps thermo b out ht _ _ _ hp hl hv (by simpa using hne) (by simpa using hll) (by simpa using hvl) _ _ _ _ _ _
    hpm hlm hvm hwP hwL hwV]
  apply c42_violated ex o hm
  have n1 : ls ≠ [] := by
    intro e; rw [e] at hll; exact hne (List.length_eq_zero_iff.mp hll.symm)
  have n2 : vs ≠ [] := by
    intro e; rw [e] at hvl; exact hne (List.length_eq_zero_iff.mp hvl.symm)
  intro cols hc s hs
  simp only [againstNumbers, Option.map_some, List.mem_cons, Option.some.injEq, List.not_mem_nil, or_false] at hc
  rcases hc with rfl | rfl | rfl <;> rw [List.mem_singleton] at hs <;> subst hs
  · exact perfect_numbers ps wP hne (fun x hx => h0 x (by simp [hx])) (fun x hx => hw0 x (by simp [hx])) hlP
  · exact perfect_numbers ls wL n1 (fun x hx => h0 x (by simp [hx])) (fun x hx => hw0 x (by simp [hx])) hlL
  · exact perfect_numbers vs wV n2 (fun x hx => h0 x (by simp [hx])) (fun x hx => hw0 x (by simp [hx])) hlV

/-- Constants for the examples below. -/
def evalConsts : Consts (Cell (Ext ℚ)) where
  stdT := .num (.fin 298)
  stdP := .num (.fin 101325)
  pureRow := .row [.fin 1]
  weight := .num (.fin 1)
  frac300k := .num (.fin 1)
  frac80k := .num (.fin 1)
  densityIncrement := .num (.fin 1)
  volumeIncrement := .num (.fin 1)
  truth := fun l => if l.length = 1 then .ok true else .error .valueError

/-- Two states of a binary mixture. -/
def bubbleInput : Input (Cell (Ext ℚ)) :=
  ⟨true, 2, PyDict.empty, none, some "bubble_pressure",
    ⟨[("T", asNumbers [.fin 300, .fin 310]), ("xi", asRows [[.fin (1/2), .fin (1/2)], [.fin (1/4), .fin (3/4)]]),
      ("P", asNumbers [.fin 100, .fin 200]), ("yi", asRows [[.fin (3/4), .fin (1/4)], [.fin (1/2), .fin (1/2)]])]⟩⟩

/-- A calculation whose pressures are one percent too high and whose vapour fractions are exact; it needs the temperatures and
the liquid compositions, and rejects the measured pressures. -/
def bubbleThermo : Thermo (Cell (Ext ℚ)) (Ext ℚ) := fun name _ opts =>
  if name = "bubble_pressure" ∧ opts.contains "Tlist" ∧ opts.contains "xilist" ∧ ¬ opts.contains "Plist" ∧
      ¬ opts.contains "yilist" then
    .ok ⟨[("P", .scalars [.fin 101, .fin 202]), ("yi", .rows [[.fin (3/4), .fin (1/4)], [.fin (1/2), .fin (1/2)]])]⟩
  else .error .keyError

/-- The pressures give one part in ten thousand, the fractions nothing. -/
example : (do
    let b ← build evalConsts .tlve bubbleInput
    objective (fun _ => 1) ⟨"average-squared-deviation", 1000, 1/10⟩ .tlve 2 bubbleThermo b) = .ok (.fin (1/10000)) := by
  decide +kernel

/-- A calculation that gives no states. -/
example : (do
    let b ← build evalConsts .tlve bubbleInput
    objective (fun _ => 1) ⟨"average-squared-deviation", 1000, 1/10⟩ .tlve 2
      (fun _ _ _ => .ok ⟨[("P", .scalars []), ("yi", .rows [])]⟩) b) = .error .indexError := by
  decide +kernel

/-- A calculation of saturation pressures and densities. -/
def satThermo : Thermo (Cell (Ext ℚ)) (Ext ℚ) := fun _ _ _ =>
  .ok ⟨[("rhol", .scalars [.fin 10, .fin 20]), ("Psat", .scalars [.fin 3, .fin 4]), ("rhov", .scalars [.fin 1, .fin 2])]⟩

/-- The same pressures and densities as measured values: the objective is infinite; with a vapour density that is wrong by a
factor of two it is finite. -/
example : (do
    let b ← build evalConsts .saturation ⟨true, 1, PyDict.empty, none, none,
      ⟨[("T", asNumbers [.fin 300, .fin 310]), ("P", asNumbers [.fin 3, .fin 4]), ("rhol", asNumbers [.fin 10, .fin 20]),
        ("rhov", asNumbers [.fin 1, .fin 2])]⟩⟩
    objective (fun _ => 1) ⟨"average-squared-deviation", 1000, 1/10⟩ .saturation 1 satThermo b) = .ok .pinf ∧
  (do
    let b ← build evalConsts .saturation ⟨true, 1, PyDict.empty, none, none,
      ⟨[("T", asNumbers [.fin 300, .fin 310]), ("P", asNumbers [.fin 3, .fin 4]), ("rhol", asNumbers [.fin 10, .fin 20]),
        ("rhov", asNumbers [.fin 1, .fin 4])]⟩⟩
    objective (fun _ => 1) ⟨"average-squared-deviation", 1000, 1/10⟩ .saturation 1 satThermo b) = .ok (.fin (1/8)) := by
  decide +kernel

/-- Flash data: vapour fractions with vapour fractions, liquid fractions with liquid fractions. Exchanged outputs give
another value. -/
example : (do
    let b ← build evalConsts .flash ⟨true, 2, PyDict.empty, none, none,
      ⟨[("T", asNumbers [.fin 300]), ("P", asNumbers [.fin 10]), ("xi", asRows [[.fin (1/4), .fin (3/4)]]),
        ("yi", asRows [[.fin (1/2), .fin (1/2)]])]⟩⟩
    let ideal : Thermo (Cell (Ext ℚ)) (Ext ℚ) := fun _ _ _ =>
      .ok ⟨[("xi", .rows [[.fin (1/4), .fin (3/4)]]), ("yi", .rows [[.fin 1, .fin 1]])]⟩
    let swapped : Thermo (Cell (Ext ℚ)) (Ext ℚ) := fun _ _ _ =>
      .ok ⟨[("yi", .rows [[.fin (1/4), .fin (3/4)]]), ("xi", .rows [[.fin 1, .fin 1]])]⟩
    let o : FormOpts ℚ := ⟨"average-squared-deviation", 1000, 1/10⟩
    .ok (objective (fun _ => 1) o .flash 2 ideal b, objective (fun _ => 1) o .flash 2 swapped b)) =
    (.ok (.ok (.fin 2), .ok (.fin (173/18))) : Except PyErr _) := by
  decide +kernel

/-- Liquid data with a fugacity coefficient: it is among the results, and only the density counts. -/
example : (do
    let b ← build evalConsts .liquid ⟨true, 1, PyDict.empty, none, none,
      ⟨[("T", asNumbers [.fin 300]), ("P", asNumbers [.fin 10]), ("rhol", asNumbers [.fin 20]), ("phil", asNumbers [.fin 7])]⟩⟩
    let o : FormOpts ℚ := ⟨"average-squared-deviation", 1000, 1/10⟩
    .ok (decide ("phil" ∈ b.resultKeys), objective (fun _ => 1) o .liquid 1
      (fun _ _ _ => .ok ⟨[("rhol", .scalars [.fin 30]), ("phil", .scalars [.fin 1])]⟩) b)) =
    (.ok (true, .ok (.fin (1/4))) : Except PyErr _) := by
  decide +kernel

/-- Solubility parameters and liquid densities. -/
example : (do
    let b ← build evalConsts .solubility ⟨true, 1, PyDict.empty, none, none,
      ⟨[("T", asNumbers [.fin 300]), ("delta", asNumbers [.fin 10]), ("rhol", asNumbers [.fin 20])]⟩⟩
    objective (fun _ => 1) (⟨"average-squared-deviation", 1000, 1/10⟩ : FormOpts ℚ) .solubility 1
      (fun _ _ _ => .ok ⟨[("rhol", .scalars [.fin 20]), ("delta", .scalars [.fin 15])]⟩) b) = .ok (.fin (1/4)) := by
  decide +kernel

end

end Verif.Props
