import Verif.Model.GlobalMethods
import Mathlib.Algebra.Order.Field.Basic
import Mathlib.Algebra.Order.Field.Rat
import Mathlib.Algebra.Order.AbsoluteValue.Basic
import Mathlib.Tactic.NormNum
import Mathlib.Tactic.Linarith
import Mathlib.Tactic.Ring

/-! # C46: basin hopping, C47: intermediate results, C77: options of the local minimiser -/

namespace Verif.Props
open Verif Verif.GlobalMethods

variable {K : Type} [Field K] [LinearOrder K]

/-! ## C46 -/

/-- **C46 (a).** A step is accepted exactly if every parameter is within its bounds and the objective is a
finite number. -/
theorem c46_accept_iff (bounds : List (K × K)) (x : List K) (f : Ext K) (hl : x.length = bounds.length) :
    accept (bounds.map (fun b => (.fin b.1, .fin b.2))) (x.map .fin) f = true ↔
      (∃ a, f = .fin a) ∧ ∀ (i : Nat) (v : K) (b : K × K), x[i]? = some v → bounds[i]? = some b →
        b.1 ≤ v ∧ v ≤ b.2 := by
  have hle : ∀ a b : K, le (Ext.fin a) (Ext.fin b) = decide (a ≤ b) := by
    intro a b
    simp only [le, Ext.lt, Objective.isNan, Ext.fin.injEq, Bool.not_false, Bool.and_true]
    rw [← Bool.decide_or]
    exact decide_eq_decide.mpr le_iff_lt_or_eq.symm
  have hf : (Ext.lt (Objective.abs f) .pinf && !Objective.isNan f) = true ↔ ∃ a, f = .fin a := by
    cases f <;> simp [Objective.abs, Objective.isNan, Ext.lt]
  have hz : ∀ (bounds : List (K × K)) (x : List K), x.length = bounds.length →
      ((((x.map Ext.fin).zip (bounds.map (fun b => ((.fin b.1 : Ext K), (.fin b.2 : Ext K))))).all
          (fun p => le p.1 p.2.2)) = true ∧
       (((x.map Ext.fin).zip (bounds.map (fun b => ((.fin b.1 : Ext K), (.fin b.2 : Ext K))))).all
          (fun p => le p.2.1 p.1)) = true ↔
        ∀ (i : Nat) (v : K) (b : K × K), x[i]? = some v → bounds[i]? = some b → b.1 ≤ v ∧ v ≤ b.2) := by
    intro bounds
    induction bounds with
    | nil =>
      intro x hx
      have : x = [] := List.length_eq_zero_iff.mp hx
      subst this; simp
    | cons b bs ih =>
      intro x hx
      cases x with
      | nil => simp at hx
      | cons v xs =>
        have hr := ih xs (by simpa using hx)
        simp only [List.map_cons, List.zip_cons_cons, List.all_cons, Bool.and_eq_true, hle, decide_eq_true_eq]
        constructor
        · rintro ⟨⟨h1, h2⟩, h3, h4⟩ i w c hi hc
          cases i with
          | zero =>
            simp only [List.getElem?_cons_zero, Option.some.injEq] at hi hc
            subst hi hc
            exact ⟨h3, h1⟩
          | succ i => exact hr.mp ⟨h2, h4⟩ i w c (by simpa using hi) (by simpa using hc)
        · intro h
          have h0 := h 0 v b rfl rfl
          have ht := hr.mpr (fun i w c hi hc => h (i + 1) w c (by simpa using hi) (by simpa using hc))
          exact ⟨⟨h0.2, ht.1⟩, h0.1, ht.2⟩
  unfold accept
  rw [Bool.and_assoc, Bool.and_eq_true, Bool.and_eq_true, hf, hz bounds x hl, and_comm]

example : accept [(.fin (0 : ℚ), .fin 2), (.fin 1, .fin 3)] [.fin 2, .fin 1] (.fin 7) = true ∧
    accept [(.fin (0 : ℚ), .fin 2), (.fin 1, .fin 3)] [.fin 3, .fin 1] (.fin 7) = false ∧
    accept [(.fin (0 : ℚ), .fin 2), (.fin 1, .fin 3)] [.fin 2, .fin 1] .nan = false ∧
    accept [(.fin (0 : ℚ), .fin 2), (.fin 1, .fin 3)] [.fin 2, .fin 1] .pinf = false := by decide +kernel

theorem c46_loop (s : K) (mags x : List K) (draws : List (List K)) (last : List K) :
    (∃ u ∈ draws, basinLoop s mags x draws last = tryStep s x mags u ∧
      ∀ v ∈ (tryStep s x mags u).take mags.length, 0 ≤ v) ∨
    ((∀ u ∈ draws, ∃ v ∈ (tryStep s x mags u).take mags.length, v < 0) ∧
      basinLoop s mags x draws last = (draws.getLast?.map (tryStep s x mags)).getD last) := by
  induction draws generalizing last with
  | nil => exact Or.inr ⟨by simp, rfl⟩
  | cons u us ih =>
    simp only [basinLoop]
    by_cases h : ((tryStep s x mags u).take mags.length).any (fun v => decide (v < 0)) = true
    · simp only [h, if_true]
      obtain ⟨v, hv, hneg⟩ := List.any_eq_true.mp h
      rcases ih (tryStep s x mags u) with ⟨w, hw, h1, h2⟩ | ⟨h1, h2⟩
      · exact Or.inl ⟨w, List.mem_cons_of_mem _ hw, h1, h2⟩
      · refine Or.inr ⟨?_, ?_⟩
        · intro w hw
          rcases List.mem_cons.mp hw with e | e
          · subst e; exact ⟨v, hv, of_decide_eq_true hneg⟩
          · exact h1 w e
        · rw [h2]
          cases us with
          | nil => rfl
          | cons w ws => rw [List.getLast?_cons_cons]; cases hg : (w :: ws).getLast? with
            | none => simp at hg
            | some z => rfl
    · simp only [h]
      refine Or.inl ⟨u, List.mem_cons_self .., rfl, ?_⟩
      intro v hv
      by_contra hcon
      exact h (List.any_eq_true.mpr ⟨v, hv, decide_eq_true (not_le.mp hcon)⟩)

/-- **C46 (b), partial.** The proposed step is non-negative, in every parameter that has a magnitude, if any of
the tries was. -/
theorem c46_nonneg_partial (s : K) (mags x : List K) (draws : List (List K)) (u : List K) (hu : u ∈ draws)
    (h : ∀ v ∈ (tryStep s x mags u).take mags.length, 0 ≤ v) : ∀ v ∈ (basinStep s mags x draws).take mags.length, 0 ≤ v := by
  unfold basinStep
  rcases c46_loop s mags x draws x with ⟨w, _, h1, h2⟩ | ⟨h1, _⟩
  · rw [h1]; exact h2
  · obtain ⟨v, hv, hneg⟩ := h1 u hu
    exact absurd (h v hv) (not_le.mpr hneg)

/-- **C46 (b), violated.** If all tries have a negative value, the last one is proposed. -/
theorem c46_violated_negative (s : K) (mags x : List K) (draws : List (List K)) (u : List K)
    (h : ∀ w ∈ draws ++ [u], ∃ v ∈ (tryStep s x mags w).take mags.length, v < 0) :
    basinStep s mags x (draws ++ [u]) = tryStep s x mags u ∧ ∃ v ∈ (basinStep s mags x (draws ++ [u])).take mags.length, v < 0 := by
  have key : basinStep s mags x (draws ++ [u]) = tryStep s x mags u := by
    unfold basinStep
    rcases c46_loop s mags x (draws ++ [u]) x with ⟨w, hw, _, h2⟩ | ⟨_, h2⟩
    · obtain ⟨v, hv, hneg⟩ := h w hw
      exact absurd (h2 v hv) (not_le.mpr hneg)
    · rw [h2, List.getLast?_append]; rfl
  refine ⟨key, ?_⟩
  rw [key]
  exact h u (by simp)

/-- It happens: a negative start with small steps never becomes non-negative. -/
example : basinStep (1 / 10 : ℚ) [1] [-1] [[1], [-1], [1 / 2]] = [-19 / 20] := by decide +kernel
example : basinStep (1 / 10 : ℚ) [1, 2] [1 / 20, 3] [[-1, 1], [1 / 2, 1], [1, 1]] = [1 / 10, 16 / 5] := by
  decide +kernel
/-- A negative parameter without a magnitude does not matter: the first try is taken. -/
example : basinStep (1 / 10 : ℚ) [1] [1, -3] [[1], [-1]] = [11 / 10, -3] := by decide +kernel

variable [IsStrictOrderedRing K]

/-- **C46 (c).** Every step stays within the step size times the magnitude of its parameter, whatever
the number of tries. -/
theorem c46_step_size (s : K) (hs : 0 ≤ s) (mags x : List K) (hm : mags.length = x.length)
    (hpos : ∀ m ∈ mags, 0 ≤ m) (draws : List (List K))
    (hd : ∀ u ∈ draws, u.length = x.length ∧ ∀ v ∈ u, |v| ≤ 1) :
    (basinStep s mags x draws).length = x.length ∧
    ∀ (i : Nat) (v v0 m : K), (basinStep s mags x draws)[i]? = some v → x[i]? = some v0 →
      mags[i]? = some m → |v - v0| ≤ m * s := by
  have one : ∀ (x mags u : List K), mags.length = x.length → u.length = x.length →
      (∀ m ∈ mags, 0 ≤ m) → (∀ v ∈ u, |v| ≤ 1) →
      (tryStep s x mags u).length = x.length ∧
      ∀ (i : Nat) (v v0 m : K), (tryStep s x mags u)[i]? = some v → x[i]? = some v0 →
        mags[i]? = some m → |v - v0| ≤ m * s := by
    intro x
    induction x with
    | nil => intro mags u _ _ _ _; simp [tryStep]
    | cons a xs ih =>
      intro mags u h1 h2 h3 h4
      cases mags with
      | nil => simp at h1
      | cons m ms =>
        cases u with
        | nil => simp at h2
        | cons w us =>
          obtain ⟨l, r⟩ := ih ms us (by simpa using h1) (by simpa using h2)
            (fun y hy => h3 y (List.mem_cons_of_mem _ hy)) (fun y hy => h4 y (List.mem_cons_of_mem _ hy))
          refine ⟨by simp [tryStep, l], ?_⟩
          intro i v v0 m' hv hv0 hm'
          cases i with
          | zero =>
            simp only [tryStep, List.getElem?_cons_zero, Option.some.injEq] at hv hv0 hm'
            subst hv hv0 hm'
            have hm0 : 0 ≤ m * s := mul_nonneg (h3 m (List.mem_cons_self ..)) hs
            have : a + m * s * w - a = m * s * w := by ring
            rw [this, abs_mul, abs_of_nonneg hm0]
            exact mul_le_of_le_one_right hm0 (h4 w (List.mem_cons_self ..))
          | succ i => exact r i v v0 m' (by simpa [tryStep] using hv) (by simpa using hv0) (by simpa using hm')
  have base : x.length = x.length ∧ ∀ (i : Nat) (v v0 m : K), x[i]? = some v → x[i]? = some v0 →
      mags[i]? = some m → |v - v0| ≤ m * s := by
    refine ⟨rfl, ?_⟩
    intro i v v0 m h1 h2 h3
    rw [h1] at h2
    cases h2
    rw [sub_self, abs_zero]
    exact mul_nonneg (hpos m (List.mem_of_getElem? h3)) hs
  unfold basinStep
  rcases c46_loop s mags x draws x with ⟨w, hw, h1, _⟩ | ⟨_, h2⟩
  · rw [h1]; exact one x mags w hm (hd w hw).1 hpos (hd w hw).2
  · rw [h2]
    cases hg : draws.getLast? with
    | none => exact base
    | some w =>
      have hw : w ∈ draws := List.mem_of_getLast? hg
      exact one x mags w hm (hd w hw).1 hpos (hd w hw).2

example : ∃ v, basinStep (1 / 10 : ℚ) [1, 2] [1 / 20, 3] [[1, 1]] = v ∧ v = [3 / 20, 16 / 5] :=
  ⟨_, rfl, by decide +kernel⟩

/-! ## C47: the file name -/

/-- **C47 (a), partial.** The file chosen does not exist, provided the given name or one of the twenty
alternatives is free. -/
theorem c47_new_file_partial (isFile : FitInput.Str → Bool) (name : FitInput.Str)
    (h : isFile name = false ∨ ∃ i < 20, isFile (altName i name) = false) :
    isFile (chooseFile isFile name) = false := by
  unfold chooseFile
  by_cases hn : isFile name = true
  · rw [if_pos hn]
    rcases h with h | ⟨i, hi, h⟩
    · rw [hn] at h; cases h
    · have : ∀ (is : List Nat) (last : FitInput.Str), i ∈ is → isFile (altLoop isFile name is last) = false := by
        intro is
        induction is with
        | nil => intro _ hm; cases hm
        | cons k ks ih =>
          intro last hm
          simp only [altLoop]
          by_cases hk : isFile (altName k name) = true
          · rw [if_pos hk]
            rcases List.mem_cons.mp hm with e | e
            · subst e; rw [hk] at h; cases h
            · exact ih _ e
          · rw [if_neg hk]; exact Bool.eq_false_iff.mpr hk
      exact this _ _ (List.mem_range.mpr hi)
  · rw [if_neg hn]; exact Bool.eq_false_iff.mpr hn

/-- **C47 (a), violated.** If the name and all twenty alternatives exist, the last alternative, an existing
file, is chosen. -/
theorem c47_violated_all_exist (isFile : FitInput.Str → Bool) (name : FitInput.Str)
    (h0 : isFile name = true) (h : ∀ i < 20, isFile (altName i name) = true) :
    chooseFile isFile name = altName 19 name ∧ isFile (chooseFile isFile name) = true := by
  have : ∀ (is : List Nat) (last : FitInput.Str), (∀ i ∈ is, i < 20) →
      altLoop isFile name is last = (is.getLast?.map (fun i => altName i name)).getD last := by
    intro is
    induction is with
    | nil => intro last _; rfl
    | cons k ks ih =>
      intro last hk
      simp only [altLoop]
      rw [if_pos (h k (hk k (List.mem_cons_self ..))), ih _ (fun i hi => hk i (List.mem_cons_of_mem _ hi))]
      cases ks with
      | nil => rfl
      | cons w ws =>
        rw [List.getLast?_cons_cons]
        cases hg : (w :: ws).getLast? with
        | none => simp at hg
        | some z => rfl
  have key : chooseFile isFile name = altName 19 name := by
    unfold chooseFile
    rw [if_pos h0, this _ _ (fun i hi => List.mem_range.mp hi)]
    rfl
  exact ⟨key, by rw [key]; exact h 19 (by decide)⟩

/-- **C47 (a), violated.** The number is put in front of the whole path: the alternative of a file in the
directory `out` is in the directory `0_out`. -/
theorem c47_violated_directory :
    chooseFile (fun f => decide (f = "out/par.txt".toList)) "out/par.txt".toList = "0_out/par.txt".toList := by
  decide +kernel

example : chooseFile (fun f => decide (f ∈ ["par.txt".toList, "0_par.txt".toList])) "par.txt".toList =
    "1_par.txt".toList := by decide +kernel

/-! ## C47: the records -/

/-- The records of the wanted events, each with the number of its call. -/
def recordsOf (cut : Ext K) : Nat → List (Event K) → List (Line K)
  | _, [] => []
  | n, e :: es => if wanted cut e then .record n e :: recordsOf cut (n + 1) es else recordsOf cut (n + 1) es

omit [Field K] [IsStrictOrderedRing K] in
theorem c47_run_existing (cut : Ext K) (es : List (Event K)) (ls : List (Line K)) (n : Nat) :
    writeRun cut ⟨some ls, n⟩ es = ⟨some (ls ++ recordsOf cut n es), n + es.length⟩ := by
  induction es generalizing ls n with
  | nil => simp [writeRun, recordsOf]
  | cons e es ih =>
    have step : writeRun cut ⟨some ls, n⟩ (e :: es) = writeRun cut (writeCall cut ⟨some ls, n⟩ e) es := rfl
    rw [step]
    by_cases h : wanted cut e = true
    · have : writeCall cut ⟨some ls, n⟩ e = ⟨some (ls ++ [.record n e]), n + 1⟩ := by
        simp [writeCall, h, appendLine]
      rw [this, ih]
      simp only [recordsOf, h, if_true, List.append_assoc, List.singleton_append, List.length_cons]
      congr 1; omega
    · have : writeCall cut ⟨some ls, n⟩ e = ⟨some ls, n + 1⟩ := by
        simp [writeCall, h]
      rw [this, ih]
      simp only [recordsOf, h, List.length_cons]
      congr 1; omega

omit [Field K] [IsStrictOrderedRing K] in
/-- **C47 (b).** A run writes exactly the accepted or sufficiently good results, in their order, after
a header; if there is none it leaves no file. -/
theorem c47_records (cut : Ext K) (es : List (Event K)) (n : Nat) :
    (writeRun cut ⟨none, n⟩ es).file =
      if recordsOf cut n es = [] then none else some (.header :: recordsOf cut n es) := by
  induction es generalizing n with
  | nil => simp [writeRun, recordsOf]
  | cons e es ih =>
    have step : writeRun cut ⟨none, n⟩ (e :: es) = writeRun cut (writeCall cut ⟨none, n⟩ e) es := rfl
    rw [step]
    by_cases h : wanted cut e = true
    · have : writeCall cut ⟨none, n⟩ e = ⟨some [.header, .record n e], n + 1⟩ := by
        simp [writeCall, h, appendLine]
      rw [this, c47_run_existing]
      simp [recordsOf, h]
    · have : writeCall cut ⟨none, n⟩ e = ⟨none, n + 1⟩ := by
        simp [writeCall, h]
      rw [this, ih]
      simp only [recordsOf, h, Bool.false_eq_true, if_false]

omit [Field K] [IsStrictOrderedRing K] in
/-- **C47 (b), independently.** A line is in the file exactly if it is the header or the record of a wanted call,
numbered by the position of this call. -/
theorem c47_recorded_iff (cut : Ext K) (es : List (Event K)) (n : Nat) (l : Line K) :
    l ∈ recordsOf cut n es ↔ ∃ (i : Nat) (e : Event K), es[i]? = some e ∧ wanted cut e = true ∧
      l = .record (n + i) e := by
  induction es generalizing n with
  | nil => simp [recordsOf]
  | cons e es ih =>
    have hrec := ih (n + 1)
    constructor
    · intro hl
      simp only [recordsOf] at hl
      by_cases h : wanted cut e = true
      · rw [if_pos h] at hl
        rcases List.mem_cons.mp hl with he | he
        · exact ⟨0, e, rfl, h, he⟩
        · obtain ⟨i, f, h1, h2, h3⟩ := hrec.mp he
          exact ⟨i + 1, f, by simpa using h1, h2, by rw [h3]; congr 1; omega⟩
      · rw [if_neg h] at hl
        obtain ⟨i, f, h1, h2, h3⟩ := hrec.mp hl
        exact ⟨i + 1, f, by simpa using h1, h2, by rw [h3]; congr 1; omega⟩
    · rintro ⟨i, f, h1, h2, h3⟩
      simp only [recordsOf]
      cases i with
      | zero =>
        simp only [List.getElem?_cons_zero, Option.some.injEq] at h1
        subst h1
        rw [if_pos h2, h3]
        exact List.mem_cons_self ..
      | succ i =>
        have : l ∈ recordsOf cut (n + 1) es :=
          hrec.mpr ⟨i, f, by simpa using h1, h2, by rw [h3]; congr 1; omega⟩
        by_cases h : wanted cut e = true
        · rw [if_pos h]; exact List.mem_cons_of_mem _ this
        · rw [if_neg h]; exact this

omit [Field K] [IsStrictOrderedRing K] in
/-- **C47 (c).** Without cut-off every step of basin hopping with a number below infinity is
written, and every step of differential evolution with a convergence below infinity. -/
theorem c47_no_cut (x : List (Ext K)) (f : Ext K) (acc : Bool) :
    wanted .pinf (.hop x f acc) = true ↔ acc = true ∨ (f ≠ .nan ∧ f ≠ .pinf) := by
  cases f <;> simp [wanted, Ext.lt]

/-- **C47 (c), violated.** The numbers are those of the calls, not of the records: with a rejected second
step the records are 0 and 2. -/
theorem c47_violated_numbers :
    recordsOf (.fin (1 : ℚ)) 0 [.hop [.fin 1] (.fin 5) true, .hop [.fin 2] (.fin 6) false,
      .hop [.fin 3] (.fin 4) true] =
    [.record 0 (.hop [.fin 1] (.fin 5) true), .record 2 (.hop [.fin 3] (.fin 4) true)] := by
  decide +kernel

omit [Field K] [IsStrictOrderedRing K] in
/-- **C47 (d), violated.** In differential evolution the cut-off meant for the objective is compared with the
convergence: whatever the objective function and however good the parameters, a result is not written
if the population has a convergence above the cut-off, and however bad, it is if it has one below. -/
theorem c47_violated_convergence (objective : List (Ext K) → Ext K) (cut : K) (x y : List (Ext K)) (c c' : K)
    (hc : c < cut) (hc' : cut ≤ c') (_good : Ext.lt (objective x) (.fin cut) = true)
    (_bad : Ext.lt (.fin cut) (objective y) = true) :
    wanted (.fin cut) (.convergence x (.fin c')) = false ∧
    wanted (.fin cut) (.convergence y (.fin c)) = true := by
  simp [wanted, Ext.lt, hc, hc']

example : wanted (.fin (10 : ℚ)) (.convergence [.fin 1] (.fin (1 / 2))) = true ∧
    Ext.lt (.fin (10 : ℚ)) (.fin 1000) = true := by decide +kernel

/-! ## C77 -/

theorem c77_merge {ν : Type} (o : List (String × ν)) (d : PyDict String ν) :
    ∃ d', mergeOptions o (some d) = .ok (some d') ∧
      (∀ k, (∀ v, (k, v) ∉ o) → d'.get? k = d.get? k) ∧
      ∀ k, (∃ v, (k, v) ∈ o) → ∃ v, (k, v) ∈ o ∧ d'.get? k = some v := by
  induction o generalizing d with
  | nil => exact ⟨d, rfl, fun _ _ => rfl, by rintro k ⟨v, hv⟩; cases hv⟩
  | cons e o ih =>
    obtain ⟨k0, v0⟩ := e
    obtain ⟨d', h1, h2, h3⟩ := ih (d.set k0 v0)
    refine ⟨d', h1, ?_, ?_⟩
    · intro k hk
      rw [h2 k (fun v hv => hk v (List.mem_cons_of_mem _ hv))]
      apply PyDict.get?_set_ne
      intro e
      subst e
      exact hk v0 (List.mem_cons_self ..)
    · rintro k ⟨v, hv⟩
      by_cases hrest : ∃ v, (k, v) ∈ o
      · obtain ⟨w, hw, hg⟩ := h3 k hrest
        exact ⟨w, List.mem_cons_of_mem _ hw, hg⟩
      · rcases List.mem_cons.mp hv with e | e
        · have : k = k0 ∧ v = v0 := by simpa using e
          obtain ⟨rfl, rfl⟩ := this
          refine ⟨v, List.mem_cons_self .., ?_⟩
          rw [h2 k (fun w hw => hrest ⟨w, hw⟩), PyDict.get?_set_self]
        · exact absurd ⟨v, e⟩ hrest

/-- **C77 (a), basin hopping and shgo.** The method is the user's if given; each nested option of the user
overrides the default of the same name, and defaults the user does not mention stay. -/
theorem c77_hopping {ν : Type} (nm fifty : ν) (m : Option ν) (o : PyDict String ν) :
    ∃ d, minimizerOptsHopping nm fifty (some ⟨m, some o⟩) = .ok (m.getD nm, some d) ∧
      (∀ k v, (k, v) ∈ o.entries → (∀ w, (k, w) ∈ o.entries → w = v) → d.get? k = some v) ∧
      ((∀ v, ("maxiter", v) ∉ o.entries) → d.get? "maxiter" = some fifty) ∧
      ∀ k, k ≠ "maxiter" → (∀ v, (k, v) ∉ o.entries) → d.get? k = none := by
  obtain ⟨d, h1, h2, h3⟩ := c77_merge o.entries ⟨[("maxiter", fifty)]⟩
  refine ⟨d, ?_, ?_, ?_, ?_⟩
  · simp only [minimizerOptsHopping, minimizerOpts, h1]
  · intro k v hv huniq
    obtain ⟨w, hw, hg⟩ := h3 k ⟨v, hv⟩
    rw [hg, huniq w hw]
  · intro h
    rw [h2 _ h]; rfl
  · intro k hk h
    rw [h2 _ h]
    simp [PyDict.get?, PyDict.lookupL, Ne.symm hk]

/-- Without user options the defaults are used. -/
theorem c77_defaults {ν : Type} (nm fifty : ν) :
    minimizerOptsHopping nm fifty none = .ok (nm, some ⟨[("maxiter", fifty)]⟩) ∧
    minimizerOptsGrid nm none = .ok (nm, none) := ⟨rfl, rfl⟩

/-- **C77, violated in the grid minimisation.** Every non-empty dictionary of nested options ends with a
`KeyError`: the user can only choose the method. -/
theorem c77_violated_grid {ν : Type} (ls : ν) (m : Option ν) (o : PyDict String ν) (h : o.entries ≠ []) :
    minimizerOptsGrid ls (some ⟨m, some o⟩) = .error .keyError := by
  obtain ⟨l⟩ := o
  cases l with
  | nil => exact absurd rfl h
  | cons e l => simp only [minimizerOptsGrid, minimizerOpts, mergeOptions]

theorem c77_grid_method {ν : Type} (ls m : ν) : minimizerOptsGrid ls (some ⟨some m, none⟩) = .ok (m, none) := rfl

/-- **C77, violated in shgo with constraints.** An option that the replacing method does not know is not
dropped: the loop raises. -/
theorem c77_violated_prune {ν : Type} (d : PyDict String ν) (k : String) (hk : k ∈ d.keys)
    (h : k ∉ slsqpOptions) : pruneOptions slsqpOptions d = .error .other := by
  unfold pruneOptions
  rw [if_neg]
  intro hall
  have := List.all_eq_true.mp hall k hk
  simp only [List.contains_eq_mem, decide_eq_true_eq] at this
  exact h this

/-- **C77** (shgo with constraints): options are handed on, all of them, exactly when they are among the five that the
replacing method knows. -/
theorem c77_prune_accepted {ν : Type} (d : PyDict String ν) :
    pruneOptions slsqpOptions d = .ok d ↔
      ∀ k ∈ d.keys, k = "ftol" ∨ k = "eps" ∨ k = "disp" ∨ k = "maxiter" ∨ k = "finite_diff_rel_step" := by
  unfold pruneOptions
  constructor
  · intro h
    split_ifs at h with hall
    intro k hk
    have := List.all_eq_true.mp hall k hk
    simpa [slsqpOptions] using this
  · intro h
    rw [if_pos (List.all_eq_true.mpr fun k hk => by simpa [slsqpOptions] using h k hk)]

example : pruneOptions slsqpOptions (⟨[("maxiter", (50 : ℚ)), ("xatol", 1)]⟩ : PyDict String ℚ) = .error .other :=
  c77_violated_prune _ "xatol" (by decide) (by decide)

example : minimizerOptsHopping "nelder-mead" "50" (some ⟨some "BFGS", some ⟨[("gtol", "1e-3"), ("maxiter", "7")]⟩⟩) =
    .ok ("BFGS", some ⟨[("maxiter", "7"), ("gtol", "1e-3")]⟩) := by decide +kernel

end Verif.Props
