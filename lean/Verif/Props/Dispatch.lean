import Verif.Model.Dispatch
import Mathlib.Tactic.Common

/-! # C48, C84–C88: entry points, factories, loggers and output tables -/

namespace Verif.Props
open Verif Verif.Dispatch

/-! ## C48 -/

/-- **C48 (a).** A calculation gives a result exactly if its type names a function of the module and this
function gives that result. -/
theorem c48_thermo_iff {α : Type} (attrs : PyDict String (Attr α)) (t : Option String) (r : α) :
    thermo attrs t = .ok r ↔ ∃ n, t = some n ∧ attrs.get? n = some (.func (.ok r)) := by
  cases t with
  | none => simp [thermo]
  | some n =>
    simp only [thermo, Option.some.injEq, exists_eq_left']
    cases h : attrs.get? n with
    | none => simp
    | some a =>
      cases a with
      | other => simp
      | func c => cases c <;> simp

/-- **C48 (b).** No type, an unknown type and a failure are three different exceptions: a `ValueError`, an
`ImportError`, and always the same `TypeError` whatever went wrong inside. -/
theorem c48_thermo_errors {α : Type} (attrs : PyDict String (Attr α)) :
    thermo attrs none = .error .valueError ∧
    (∀ n, attrs.get? n = none → thermo attrs (some n) = .error .importError) ∧
    (∀ n e, attrs.get? n = some (.func (.error e)) → thermo attrs (some n) = .error .typeError) := by
  refine ⟨rfl, ?_, ?_⟩
  · intro n h; simp only [thermo, h]
  · intro n e h; simp only [thermo, h]

/-- **C48 (b), violated.** A name that is no calculation type but an attribute of the module is not reported as
unknown. -/
theorem c48_violated_lookup {α : Type} (attrs : PyDict String (Attr α)) (h : attrs.get? "np" = some .other) :
    "np" ∉ calculationTypes ∧ thermo attrs (some "np") = .error .typeError := by
  refine ⟨by decide, ?_⟩
  simp only [thermo, h]

private theorem lookup_map {β : Type} (l : List String) (f : String → β) (rest : List (String × β)) (n : String) :
    PyDict.lookupL (l.map (fun m => (m, f m)) ++ rest) n = if n ∈ l then some (f n) else PyDict.lookupL rest n := by
  induction l with
  | nil => simp
  | cons a l ih =>
    by_cases h : a = n
    · subst h; simp [PyDict.lookupL]
    · have : n ≠ a := fun e => h e.symm
      simp [PyDict.lookupL, h, this, ih]

private theorem module_get {α : Type} (call : String → Except PyErr α) (n : String) :
    (calculationModule call).get? n = if n ∈ calculationTypes then some (.func (call n))
      else if n ∈ calculationWrappers then some (.func (.error .typeError))
      else if n ∈ calculationOthers then some .other else none := by
  unfold calculationModule PyDict.get?
  simp only [List.append_assoc]
  rw [lookup_map, lookup_map]
  have := lookup_map calculationOthers (fun _ => (Attr.other : Attr α)) [] n
  rw [List.append_nil] at this
  rw [this]
  rfl

/-- **C48 (a), for the module as it is.** There are nine calculation types, each runs the function of its name, and no other name
gives a result. -/
theorem c48_nine {α : Type} (call : String → Except PyErr α) (n : String) (r : α) :
    thermo (calculationModule call) (some n) = .ok r ↔ call n = .ok r ∧
      (n = "bubble_pressure" ∨ n = "dew_pressure" ∨ n = "activity_coefficient" ∨ n = "flash" ∨ n = "saturation_properties" ∨
        n = "liquid_properties" ∨ n = "vapor_properties" ∨ n = "solubility_parameter" ∨ n = "verify_eos") := by
  have hm : n ∈ calculationTypes ↔ (n = "bubble_pressure" ∨ n = "dew_pressure" ∨ n = "activity_coefficient" ∨ n = "flash" ∨
      n = "saturation_properties" ∨ n = "liquid_properties" ∨ n = "vapor_properties" ∨ n = "solubility_parameter" ∨
      n = "verify_eos") := by simp [calculationTypes]
  rw [← hm]
  simp only [thermo, module_get]
  by_cases h : n ∈ calculationTypes
  · simp only [h, if_true, and_true]
    cases call n <;> simp
  · simp only [h, if_false, and_false, iff_false]
    by_cases h2 : n ∈ calculationWrappers
    · simp [h2]
    · by_cases h3 : n ∈ calculationOthers <;> simp [h2, h3]

/-- **C48 (b), for the module as it is.** A name that is none of the attributes is reported as unknown; the names of the
wrappers, of the imports and of the logger are reported as failed calculations. -/
theorem c48_other_names {α : Type} (call : String → Except PyErr α) (n : String) (h : n ∉ calculationTypes) :
    thermo (calculationModule call) (some n) =
      if n ∈ ["_bubble_pressure_wrapper", "_dew_pressure_wrapper", "_activity_coefficient_wrapper", "_flash_wrapper",
        "_saturation_properties_wrapper", "_liquid_properties_wrapper", "_vapor_properties_wrapper",
        "_solubility_parameter_wrapper", "_verify_eos_wrapper", "np", "logging", "MultiprocessingJob", "calc", "constants", "gtb",
        "logger"] then .error .typeError else .error .importError := by
  have hm : n ∈ calculationWrappers ∨ n ∈ calculationOthers ↔ n ∈ ["_bubble_pressure_wrapper", "_dew_pressure_wrapper",
        "_activity_coefficient_wrapper", "_flash_wrapper",
        "_saturation_properties_wrapper", "_liquid_properties_wrapper", "_vapor_properties_wrapper",
        "_solubility_parameter_wrapper", "_verify_eos_wrapper", "np", "logging", "MultiprocessingJob", "calc", "constants", "gtb",
        "logger"] := by
    rw [← List.mem_append]; rfl
  simp only [thermo, module_get, ← hm, h, if_false]
  by_cases h2 : n ∈ calculationWrappers
  · simp [h2]
  · by_cases h3 : n ∈ calculationOthers <;> simp [h2, h3]

example : thermo (calculationModule fun n => .ok n.length) (some "flash") = .ok 5 ∧
    thermo (calculationModule fun n => .ok n.length) (some "np") = .error .typeError ∧
    thermo (calculationModule fun n => .ok n.length) (some "flashes") = .error .importError := by decide +kernel

example : thermo (⟨[("flash", .func (.ok 7)), ("calc", .other)]⟩ : PyDict String (Attr Nat)) (some "flash") = .ok 7 ∧
    thermo (⟨[("flash", .func (.ok 7)), ("np", .other)]⟩ : PyDict String (Attr Nat)) (some "np") = .error .typeError :=
  ⟨rfl, rfl⟩

/-- **C48 (c).** The flags for python, cython and the console enable what they name. -/
theorem c48_flags_partial (f : Flags) :
    (parse f).python = f.python ∧ (parse f).cython = f.cython ∧ (parse f).console = f.console :=
  ⟨rfl, rfl, rfl⟩

/-- **C48 (c), violated.** The flag that should turn Numba on turns it off. -/
theorem c48_violated_numba (f : Flags) : (parse f).numba = !f.numba := rfl

/-- **C48 (c), violated.** With `--numba` alone no equation of state can be made at all. -/
theorem c48_violated_numba_alone (f : Flags) (h : f.numba = true) (hp : f.python = false)
    (hc : f.cython = false) : commandLineMethod f = .error .valueError := by
  simp [commandLineMethod, parse, methodStat, h, hp, hc]

/-- The command line gives a usable choice in all other cases, and Numba is used exactly when no flag was given. -/
theorem c48_command_line (f : Flags) (h : f.numba = false ∨ f.python = true ∨ f.cython = true) :
    ∃ m, commandLineMethod f = .ok m ∧ m.python = f.python ∧ m.cython = f.cython ∧
      (m.numba = true ↔ f.numba = false ∧ f.python = false ∧ f.cython = false) := by
  obtain ⟨v, c, n, p, y⟩ := f
  cases n <;> cases p <;> cases y <;> simp_all [commandLineMethod, parse, methodStat]

/-- Cython or python switch Numba off. -/
theorem c48_method_stat (numba cython python : Bool) (m : MethodStat)
    (h : methodStat numba cython python = .ok m) :
    (m.cython = cython ∧ m.python = python) ∧ (m.numba = true → cython = false ∧ python = false) ∧
      (m.numba || m.cython || m.python) = true := by
  cases numba <;> cases cython <;> cases python <;> simp_all [methodStat] <;> subst h <;> simp

/-- **C48 (d), partial.** From the first repetition on, more `-v` never gives fewer messages. -/
theorem c48_verbosity_partial (v w : Nat) (hv : 1 ≤ v) (h : v ≤ w) : level w ≤ level v := by
  unfold level
  split <;> split <;> first | omega | (split <;> first | omega | (split <;> omega))

/-- **C48 (d), violated.** One `-v` gives fewer messages than none. -/
theorem c48_violated_verbosity : level 0 < level 1 ∧ level 1 = 30 ∧ level 2 = 20 ∧ level 3 = 10 ∧ level 0 = 20 := by
  decide

example : commandLineMethod ⟨0, false, true, false, false⟩ = .error .valueError ∧
    commandLineMethod ⟨0, false, false, false, false⟩ = .ok ⟨true, false, false⟩ := by decide

/-! ## C84: the equation of state named in the input -/

/-- **C84.** Exactly three names give an equation of state. -/
theorem c84_names_iff (s : List Char) (e : Eos) :
    findEos s = .ok e ↔ (s = "saft.gamma_mie".toList ∧ e = .gammaMie) ∨
      (s = "saft.gamma_sw".toList ∧ e = .gammaSw) ∨ (s = "cubic.peng_robinson".toList ∧ e = .pengRobinson) := by
  have join : ∀ (s : List Char) (a b : List Char), splitDot s = [a, b] → s = a ++ '.' :: b := by
    have one : ∀ (s : List Char) (b : List Char), splitDot s = [b] → s = b := by
      intro s
      induction s with
      | nil => intro b h; simp only [splitDot, List.cons.injEq, and_true] at h; exact h
      | cons c cs ih =>
        intro b h
        simp only [splitDot] at h
        split at h
        · simp only [List.cons.injEq] at h
          have : splitDot cs ≠ [] := by
            cases cs with
            | nil => simp [splitDot]
            | cons d ds =>
              simp only [splitDot]
              split
              · simp
              · split <;> simp
          exact absurd h.2 this
        · cases hs : splitDot cs with
          | nil =>
            have : splitDot cs ≠ [] := by
              cases cs with
              | nil => simp [splitDot]
              | cons d ds =>
                simp only [splitDot]
                split
                · simp
                · split <;> simp
            exact absurd hs this
          | cons w ws =>
            rw [hs] at h
            simp only [List.cons.injEq] at h
            obtain ⟨h1, h2⟩ := h
            subst h2
            rw [ih w hs, ← h1]
    intro s
    induction s with
    | nil => intro a b h; simp [splitDot] at h
    | cons c cs ih =>
      intro a b h
      simp only [splitDot] at h
      split at h
      · next hc =>
        simp only [List.cons.injEq] at h
        obtain ⟨h1, h2⟩ := h
        rw [← h1, hc, one cs b (by rw [h2])]
        rfl
      · cases hs : splitDot cs with
        | nil => rw [hs] at h; simp at h
        | cons w ws =>
          rw [hs] at h
          simp only [List.cons.injEq] at h
          obtain ⟨h1, h2⟩ := h
          rw [ih w b (by rw [hs, h2]), ← h1]
          rfl
  constructor
  · intro h
    unfold findEos at h
    split at h
    · next fam typ hs =>
      have hj := join s fam typ hs
      by_cases h1 : fam = "saft".toList
      · rw [if_pos h1] at h
        unfold saftType at h
        by_cases h2 : typ = "gamma_mie".toList
        · rw [if_pos h2] at h
          cases h
          left; exact ⟨by rw [hj, h1, h2]; rfl, rfl⟩
        · rw [if_neg h2] at h
          by_cases h3 : typ = "gamma_sw".toList
          · rw [if_pos h3] at h
            cases h
            right; left; exact ⟨by rw [hj, h1, h3]; rfl, rfl⟩
          · rw [if_neg h3] at h; cases h
      · rw [if_neg h1] at h
        by_cases h2 : fam = "cubic".toList
        · rw [if_pos h2] at h
          by_cases h3 : typ = "peng_robinson".toList
          · rw [if_pos h3] at h
            cases h
            right; right; exact ⟨by rw [hj, h2, h3]; rfl, rfl⟩
          · rw [if_neg h3] at h; cases h
        · rw [if_neg h2] at h; cases h
    · cases h
  · rintro (⟨rfl, rfl⟩ | ⟨rfl, rfl⟩ | ⟨rfl, rfl⟩) <;> decide +kernel

/-- **C84 (b).** Any other name is rejected, with a `ValueError` or an `ImportError`. -/
theorem c84_rejected (s : List Char) (e : PyErr) (h : findEos s = .error e) :
    e = .valueError ∨ e = .importError := by
  unfold findEos at h
  split at h
  · split at h
    · unfold saftType at h
      split at h
      · cases h
      · split at h
        · cases h
        · cases h; exact Or.inl rfl
    · split at h
      · split at h
        · cases h
        · cases h; exact Or.inr rfl
      · cases h; exact Or.inr rfl
  · cases h; exact Or.inl rfl

example : findEos "saft.gamma_mie".toList = .ok .gammaMie ∧ findEos "gamma_mie".toList = .error .valueError ∧
    findEos "cubic.srk".toList = .error .importError ∧ findEos "saft.pc".toList = .error .valueError ∧
    findEos "a.b.c".toList = .error .valueError := by decide +kernel

/-! ## C85: loggers -/

/-- **C85 (a).** The console handler is there afterwards exactly if it was asked for, and one that was
there is kept as it is. -/
theorem c85_console (console : Option Bool) (lf : LogFile) (v : Nat) (s : Logger) :
    ((initiateLogger console lf v s).console.isSome = true ↔ console = some true) ∧
    (console = some true → s.console.isSome = true → (initiateLogger console lf v s).console = s.console) := by
  simp only [initiateLogger, consoleStep]
  by_cases h : console = some true
  · cases hs : s.console <;> simp [h]
  · simp [h]

/-- **C85 (b), partial.** A file handler asked for is there afterwards, and one that was there is kept as it
is. -/
theorem c85_file_partial (console : Option Bool) (lf : LogFile) (v : Nat) (s : Logger) (h : lf ≠ .notGiven) :
    (initiateLogger console lf v s).file = some (s.file.getD (lf.fileName, v)) := by
  simp only [initiateLogger, fileStep]
  cases lf with
  | notGiven => exact absurd rfl h
  | flag b => cases s.file <;> rfl
  | name n => cases s.file <;> rfl

/-- **C85 (b), violated.** `log_file=False` never removes the file handler, and makes one if there was none. -/
theorem c85_violated_false (console : Option Bool) (v : Nat) (s : Logger) :
    (initiateLogger console (.flag false) v s).file = some (s.file.getD ("despasito.log", v)) :=
  c85_file_partial console (.flag false) v s (by simp)

/-- **C85, violated.** Leaving out `console`, for instance to add a log file, removes the console handler,
though only `False` should. -/
theorem c85_violated_console (lf : LogFile) (v : Nat) (s : Logger) :
    (initiateLogger none lf v s).console = none := rfl

/-- **C85, violated.** A changed verbosity does not reach the handlers that exist: with the level of a
handler above the new one, its messages stay those of the first call. -/
theorem c85_violated_level (lf : LogFile) (v l : Nat) (s : Logger) (h : s.console = some l) :
    (initiateLogger (some true) lf v s).console = some l ∧ (initiateLogger (some true) lf v s).level = v := by
  simp [initiateLogger, consoleStep, h]

/-- Calling it again with the same arguments changes nothing. -/
theorem c85_idempotent (console : Option Bool) (lf : LogFile) (v : Nat) (s : Logger) :
    initiateLogger console lf v (initiateLogger console lf v s) = initiateLogger console lf v s := by
  have h1 : consoleStep console v (consoleStep console v s.console) = consoleStep console v s.console := by
    unfold consoleStep
    by_cases h : console = some true
    · simp only [h, if_true]; cases s.console <;> rfl
    · simp only [h, if_false]
  have h2 : fileStep lf v (fileStep lf v s.file) = fileStep lf v s.file := by
    cases lf <;> cases s.file <;> rfl
  unfold initiateLogger
  simp only [h1, h2]

example : initiateLogger (some true) (.name "a.log") 10 ⟨30, none, none⟩ = ⟨10, some 10, some ("a.log", 10)⟩ ∧
    initiateLogger none (.flag false) 30 ⟨10, some 10, none⟩ = ⟨30, none, some ("despasito.log", 30)⟩ := by decide

/-! ## C86: settings of one data set -/

theorem c86_copy {ν : Type} (settings : PyDict String ν) (ks : List String) (d : PyDict String ν) (k : String) :
    (copyFitting settings ks d).get? k =
      if k ∈ ks ∧ (settings.get? k).isSome then settings.get? k else d.get? k := by
  induction ks generalizing d with
  | nil => simp [copyFitting]
  | cons a ks ih =>
    simp only [copyFitting]
    cases ha : settings.get? a with
    | none =>
      simp only [ih]
      by_cases hk : k = a
      · subst hk; simp [ha]
      · simp [hk]
    | some v =>
      simp only [ih, PyDict.get?_set]
      by_cases hk : a = k
      · subst hk; simp [ha]
      · have hk' : ¬ k = a := fun h => hk h.symm
        simp [hk, hk']

/-- **C86, partial.** A general setting reaches the data sets, and a data set's own setting is used where
there is no general one. -/
theorem c86_settings_partial {ν : Type} (settings d : PyDict String ν) (k : String)
    (hk : k = "objective_method" ∨ k = "nan_number" ∨ k = "nan_ratio") :
    (∀ v, settings.get? k = some v → (copyFitting settings fittingOpts d).get? k = some v) ∧
    (settings.get? k = none → (copyFitting settings fittingOpts d).get? k = d.get? k) := by
  have hk : k ∈ fittingOpts := by rcases hk with rfl | rfl | rfl <;> decide
  refine ⟨?_, ?_⟩
  · intro v hv; rw [c86_copy, hv]; simp [hk]
  · intro hv; rw [c86_copy, hv]; simp

/-- Nothing else is touched. -/
theorem c86_others {ν : Type} (settings d : PyDict String ν) (k : String)
    (hk : k ≠ "objective_method" ∧ k ≠ "nan_number" ∧ k ≠ "nan_ratio") :
    (copyFitting settings fittingOpts d).get? k = d.get? k := by
  have hk : k ∉ fittingOpts := by simpa [fittingOpts] using hk
  rw [c86_copy]; simp [hk]

/-- **C86, violated.** A data set's own setting is replaced by the general one. -/
theorem c86_violated {ν : Type} (settings d : PyDict String ν) (k : String)
    (hk : k = "objective_method" ∨ k = "nan_number" ∨ k = "nan_ratio") (own general : ν)
    (_ : d.get? k = some own) (hg : settings.get? k = some general) :
    (copyFitting settings fittingOpts d).get? k = some general :=
  (c86_settings_partial settings d k hk).1 general hg

example : ((copyFitting ⟨[("nan_number", 5)]⟩ fittingOpts ⟨[("nan_number", 1000), ("a", 2)]⟩ :
    PyDict String Nat)).entries = [("nan_number", 5), ("a", 2)] := by decide +kernel

/-! ## C87: the output table -/

theorem allSome_get {α β : Type} (f : α → Option β) (l : List α) (m : List β) (h : allSome f l = some m) :
    m.length = l.length ∧ ∀ (i : Nat) (a : α), l[i]? = some a → ∃ b, f a = some b ∧ m[i]? = some b := by
  induction l generalizing m with
  | nil => simp only [allSome, Option.some.injEq] at h; subst h; simp
  | cons a as ih =>
    simp only [allSome] at h
    cases hf : f a with
    | none => simp only [hf] at h; cases h
    | some b =>
      simp only [hf] at h
      cases hr : allSome f as with
      | none => simp only [hr] at h; cases h
      | some bs =>
        simp only [hr, Option.some.injEq] at h
        subst h
        obtain ⟨h1, h2⟩ := ih bs hr
        refine ⟨by simp [h1], ?_⟩
        intro i x hx
        cases i with
        | zero => simp only [List.getElem?_cons_zero, Option.some.injEq] at hx; subst hx; exact ⟨b, hf, rfl⟩
        | succ i => obtain ⟨y, hy, hm⟩ := h2 i x (by simpa using hx); exact ⟨y, hy, by simpa using hm⟩

theorem allSome_map {α β γ : Type} (f : α → Option β) (g : γ → α) (k : γ → β) (l : List γ)
    (h : ∀ c ∈ l, f (g c) = some (k c)) : allSome f (l.map g) = some (l.map k) := by
  induction l with
  | nil => rfl
  | cons c cs ih =>
    simp only [List.map_cons, allSome, h c (List.mem_cons_self ..),
      ih (fun d hd => h d (List.mem_cons_of_mem _ hd))]

theorem nth_get {α : Type} (i : Nat) (rows : List (List α)) (h : ∀ r ∈ rows, i < r.length) (j : Nat)
    (r : List α) (hr : rows[j]? = some r) : (nth i rows)[j]? = r[i]? := by
  induction rows generalizing j with
  | nil => simp at hr
  | cons s rows ih =>
    have hs : i < s.length := h s (List.mem_cons_self ..)
    have : nth i (s :: rows) = s[i] :: nth i rows := by
      simp [nth, List.getElem?_eq_getElem hs]
    rw [this]
    cases j with
    | zero =>
      simp only [List.getElem?_cons_zero, Option.some.injEq] at hr
      subst hr
      rw [List.getElem?_cons_zero, List.getElem?_eq_getElem hs]
    | succ j =>
      simp only [List.getElem?_cons_succ] at hr ⊢
      exact ih (fun r hr => h r (List.mem_cons_of_mem _ hr)) j hr

theorem nth_length {α : Type} (i : Nat) (rows : List (List α)) (h : ∀ r ∈ rows, i < r.length) :
    (nth i rows).length = rows.length := by
  induction rows with
  | nil => rfl
  | cons s rows ih =>
    have hs : i < s.length := h s (List.mem_cons_self ..)
    have : nth i (s :: rows) = s[i] :: nth i rows := by
      simp [nth, List.getElem?_eq_getElem hs]
    rw [this]
    simp [ih (fun r hr => h r (List.mem_cons_of_mem _ hr))]

/-- **C87 (a).** A property with one number for each point gives one column with these numbers in order. -/
theorem c87_scalar_column {α : Type} (key : String) (x : α) (xs : List α) :
    columnsOf key ((x :: xs).map .num) = .ok [(key, x :: xs)] := by
  have : allSome Cell.num? ((x :: xs).map (Cell.num : α → Cell α)) = some ((x :: xs).map id) :=
    allSome_map _ _ _ _ (fun c _ => rfl)
  simp only [columnsOf, List.map_cons, Cell.size, Nat.lt_irrefl, if_false]
  rw [← List.map_cons, this, List.map_id]

/-- **C87 (b).** A property with an array of `n > 1` numbers for each point gives `n` columns, numbered from
one, and column `i` has in row `j` the entry `i` of the array of point `j`. -/
theorem c87_array_columns {α : Type} (key : String) (n : Nat) (hn : 1 < n) (rows : List (List α)) (h0 : rows ≠ [])
    (h : ∀ r ∈ rows, r.length = n) :
    ∃ cols, columnsOf key (rows.map .arr) = .ok cols ∧ cols.length = n ∧
      ∀ i < n, ∃ c, cols[i]? = some (key ++ Nat.repr (i + 1), c) ∧ c.length = rows.length ∧
        ∀ (j : Nat) (r : List α), rows[j]? = some r → c[j]? = r[i]? := by
  cases rows with
  | nil => exact absurd rfl h0
  | cons r0 rs =>
    have hs : allSome Cell.arr? ((r0 :: rs).map (Cell.arr : List α → Cell α)) = some ((r0 :: rs).map id) :=
      allSome_map _ _ _ _ (fun c _ => rfl)
    rw [List.map_id] at hs
    have h00 : r0.length = n := h r0 (List.mem_cons_self ..)
    have hall : (r0 :: rs).all (fun r => decide (r.length = n)) = true :=
      List.all_eq_true.mpr (fun r hr => decide_eq_true (h r hr))
    refine ⟨(List.range n).map (fun (i : Nat) => (key ++ Nat.repr (i + 1), nth i (r0 :: rs))), ?_, ?_, ?_⟩
    · simp only [columnsOf, List.map_cons, Cell.size, h00, if_pos hn]
      rw [← List.map_cons, hs]
      simp only [hall, if_true]
    · simp
    · intro i hi
      refine ⟨nth i (r0 :: rs), ?_, nth_length i _ (fun r hr => by rw [h r hr]; exact hi), ?_⟩
      · rw [List.getElem?_map, List.getElem?_range hi]; rfl
      · intro j r hr
        exact nth_get i _ (fun r hr => by rw [h r hr]; exact hi) j r hr

/-- **C87 (c).** In the table written, row `j` is made of entry `j` of every column, under the names of the
columns, and there are as many rows as entries. -/
theorem c87_table {α : Type} (calctype : String) (out : List (String × List (Cell α))) (t : Table α)
    (h : writeThermo calctype out = .ok t) :
    ∃ cols, allColumns out = .ok cols ∧ cols ≠ [] ∧ t.names.map Prod.fst = cols.map Prod.fst ∧
      (∀ c ∈ cols, c.2.length = t.rows.length) ∧
      ∀ (j k : Nat) (row : List α) (c : String × List α), t.rows[j]? = some row → cols[k]? = some c →
        row[k]? = c.2[j]? := by
  unfold writeThermo at h
  cases hc : allColumns out with
  | error e => simp only [hc] at h; cases h
  | ok cols =>
    cases cols with
    | nil => simp only [hc] at h; cases h
    | cons c cs =>
      simp only [hc] at h
      by_cases hall : cs.all (fun d => decide (d.2.length = c.2.length)) = true
      · rw [if_pos hall] at h
        simp only [Except.ok.injEq] at h
        have hlen : ∀ d ∈ c :: cs, d.2.length = c.2.length := by
          intro d hd
          rcases List.mem_cons.mp hd with e | e
          · rw [e]
          · exact of_decide_eq_true (List.all_eq_true.mp hall d e)
        refine ⟨c :: cs, rfl, by simp, ?_, ?_, ?_⟩
        · rw [← h]; simp
        · intro d hd; rw [← h, hlen d hd]; simp
        · intro j k row d hrow hd
          rw [← h] at hrow
          simp only at hrow
          have hj : j < c.2.length := by
            by_contra hcon
            rw [List.getElem?_eq_none (by simp; omega)] at hrow; cases hrow
          rw [List.getElem?_map, List.getElem?_range hj] at hrow
          simp only [Option.map_some, Option.some.injEq] at hrow
          rw [← hrow]
          apply nth_get j ((c :: cs).map Prod.snd)
          · intro r hr
            obtain ⟨d', hd', rfl⟩ := List.mem_map.mp hr
            rw [hlen d' hd']; exact hj
          · rw [List.getElem?_map, hd]; rfl
      · rw [if_neg hall] at h; cases h

/-- **C87, violated.** The comment line does not name the calculation: it is the same for all. -/
theorem c87_violated_comment {α : Type} (c1 c2 : String) (out : List (String × List (Cell α))) :
    writeThermo c1 out = writeThermo c2 out := rfl

/-- A property with arrays for some points and numbers for others is rejected, never written shifted. -/
theorem c87_mixed_rejected {α : Type} (key : String) (r : List α) (hr : 1 < r.length) (x : α) (vs ws : List (Cell α)) :
    columnsOf key (.arr r :: vs ++ .num x :: ws) = .error .valueError := by
  have : ∀ vs : List (Cell α), allSome Cell.arr? (vs ++ .num x :: ws) = none := by
    intro vs
    induction vs with
    | nil => simp only [List.nil_append, allSome, Cell.arr?]
    | cons v vs ih =>
      simp only [List.cons_append, allSome]
      cases v with
      | num y => simp only [Cell.arr?]
      | arr l => simp only [Cell.arr?, ih]
  have h2 := this (.arr r :: vs)
  simp only [List.cons_append] at h2 ⊢
  simp only [columnsOf, Cell.size, if_pos hr, h2]

example : writeThermo "flash" [("T", [.num 300, .num 310]), ("xi", [.arr [1, 2], .arr [3, 4]])] =
    .ok ⟨"# This data was generated in DESPASITO using the thermodynamic ",
      [("T", some "K"), ("xi1", none), ("xi2", none)], [[300, 1, 2], [310, 3, 4]]⟩ := by decide +kernel

/-- **C87 (d).** The table of a fit has the parameters with their own values, and exactly if there are enough values. -/
theorem c87_fit {α : Type} (names : List String) (vals : List α) (h : names.length ≤ vals.length) :
    writeFit names vals = .ok (names.zip vals) := by
  induction names generalizing vals with
  | nil => simp [writeFit]
  | cons n ns ih =>
    cases vals with
    | nil => simp at h
    | cons x xs => simp only [writeFit, ih xs (by simpa using h), List.zip_cons_cons]

theorem c87_fit_short {α : Type} (names : List String) (vals : List α) (h : vals.length < names.length) :
    writeFit names vals = .error .indexError := by
  induction names generalizing vals with
  | nil => simp at h
  | cons n ns ih =>
    cases vals with
    | nil => rfl
    | cons x xs => simp only [writeFit, ih xs (by simpa using h)]

example : writeFit ["epsilon", "sigma"] [250, 3] = .ok [("epsilon", 250), ("sigma", 3)] := by decide +kernel

/-! ## C88: constraints and minimiser options -/

/-- **C88, violated.** Constraints given to `fit` reach no method. -/
theorem c88_violated_constraints (m : String) (mo c : Bool) (r : Bool × Bool) (h : runMethod m mo c = .ok r) :
    r.2 = false ∧ runMethod m mo true = runMethod m mo false := by
  refine ⟨?_, rfl⟩
  unfold runMethod at h
  cases hl : methodTable.lookup m with
  | none => simp only [hl] at h; cases h
  | some t =>
    obtain ⟨a, b⟩ := t
    simp only [hl] at h
    split at h
    · cases h
    · cases h; rfl

/-- **C88, partial.** A known method runs if no minimiser options are given; with options it runs, and
gets them, exactly if it has a local minimiser. -/
theorem c88_options_partial (m : String) (takes b : Bool) (c : Bool) (h : methodTable.lookup m = some (takes, b)) :
    runMethod m false c = .ok (false, false) ∧
    (takes = true → runMethod m true c = .ok (true, false)) ∧
    (takes = false → runMethod m true c = .error .typeError) := by
  unfold runMethod
  simp only [h]
  refine ⟨by simp, ?_, ?_⟩ <;> intro ht <;> simp [ht]

/-- **C88, violated.** Minimiser options make the default method fail. -/
theorem c88_violated_default (c : Bool) : runMethod "differential_evolution" true c = .error .typeError := by
  cases c <;> decide +kernel

/-- **C88.** The six methods, and the three of them that take options for a local minimiser; everything else is the same
`TypeError`. -/
theorem c88_methods (m : String) (mo c : Bool) :
    runMethod m mo c =
      if m = "shgo" ∨ m = "grid_minimization" ∨ m = "basinhopping" ∨
        (mo = false ∧ (m = "single_objective" ∨ m = "differential_evolution" ∨ m = "brute"))
      then .ok (mo, false) else .error .typeError := by
  by_cases h : m ∈ ["single_objective", "differential_evolution", "shgo", "grid_minimization", "brute", "basinhopping"]
  · simp only [List.mem_cons, List.not_mem_nil, or_false] at h
    rcases h with rfl | rfl | rfl | rfl | rfl | rfl <;> cases mo <;> cases c <;> decide +kernel
  · simp only [List.mem_cons, List.not_mem_nil, or_false, not_or] at h
    obtain ⟨h1, h2, h3, h4, h5, h6⟩ := h
    have hn : ∀ x y : String, x ≠ y → (x == y) = false := fun x y h => by simpa using h
    simp [runMethod, methodTable, List.lookup, hn _ _ h1, hn _ _ h2, hn _ _ h3, hn _ _ h4, hn _ _ h5, hn _ _ h6, h1, h2, h3, h4,
      h5, h6]

example : runMethod "shgo" true true = .ok (true, false) := by decide +kernel

/-! ## C87, continued -/

/-- **C87 (e).** Arrays of different lengths are rejected, never written shifted. -/
theorem c87_shapes_rejected {α : Type} (key : String) (r q : List α) (hr : 1 < r.length) (hq : q.length ≠ r.length)
    (rows : List (List α)) (h : q ∈ rows) : columnsOf key ((r :: rows).map .arr) = .error .valueError := by
  have hs : ∀ l : List (List α), allSome Cell.arr? (l.map Cell.arr) = some l := by
    intro l
    induction l with
    | nil => rfl
    | cons a l ih => simp only [List.map_cons, allSome, Cell.arr?, ih]
  have h2 := hs (r :: rows)
  simp only [List.map_cons] at h2 ⊢
  simp only [columnsOf, Cell.size, if_pos hr, h2]
  have hall : ((r :: rows).all fun p => decide (p.length = r.length)) = false := by
    rw [List.all_eq_false]
    exact ⟨q, List.mem_cons_of_mem _ h, by simpa using hq⟩
  show (if ((r :: rows).all fun p => decide (p.length = r.length)) = true then _ else _) = _
  rw [hall]; rfl

/-- **C87 (f).** The units written beside the names: pressures in pascal, densities in moles per cubic metre, the
temperature in kelvin, the solubility parameter in the square root of pascal, nothing for other names. -/
theorem c87_units {α : Type} (calctype : String) (out : List (String × List (Cell α))) (t : Table α)
    (h : writeThermo calctype out = .ok t) (key : String) (u : Option String) (hm : (key, u) ∈ t.names) :
    u = if key = "T" then some "K" else if key = "P" ∨ key = "Psat" then some "Pa"
      else if key = "rhol" ∨ key = "rhov" then some "mol/m^3" else if key = "delta" then some "Pa^(1/2)" else none := by
  have hu : ∀ key : String, unitOf key = if key = "T" then some "K" else if key = "P" ∨ key = "Psat" then some "Pa"
      else if key = "rhol" ∨ key = "rhov" then some "mol/m^3" else if key = "delta" then some "Pa^(1/2)" else none := by
    intro key
    unfold unitOf
    simp only [List.lookup]
    by_cases h1 : key = "T"
    · subst h1; decide
    by_cases h2 : key = "P"
    · subst h2; decide
    by_cases h3 : key = "Psat"
    · subst h3; decide
    by_cases h4 : key = "rhol"
    · subst h4; decide
    by_cases h5 : key = "rhov"
    · subst h5; decide
    by_cases h6 : key = "delta"
    · subst h6; decide
    simp [beq_eq_false_iff_ne.mpr h1, beq_eq_false_iff_ne.mpr h2, beq_eq_false_iff_ne.mpr h3, beq_eq_false_iff_ne.mpr h4,
      beq_eq_false_iff_ne.mpr h5, beq_eq_false_iff_ne.mpr h6, h1, h2, h3, h4, h5, h6]
  unfold writeThermo at h
  cases hc : Dispatch.allColumns out with
  | error e => rw [hc] at h; cases h
  | ok cols =>
    rw [hc] at h
    cases cols with
    | nil => cases h
    | cons c cs =>
      simp only at h
      split at h
      · cases h
        obtain ⟨d, _, hd⟩ := List.mem_map.mp hm
        cases hd
        exact hu _
      · cases h

/-- **C87 (g).** Results are always written to a file with a name: the one asked for unless it is empty. -/
theorem c87_file_name (o : Option String) :
    outputFile o ≠ "" ∧ (∀ s, s ≠ "" → outputFile (some s) = s) ∧ outputFile none = "despasito_out.txt" := by
  refine ⟨?_, fun s hs => by simp [outputFile, hs], rfl⟩
  cases o with
  | none => decide
  | some s =>
    unfold outputFile
    by_cases hs : s = "" <;> simp [hs]

end Verif.Props
