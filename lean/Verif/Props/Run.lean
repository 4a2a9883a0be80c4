import Verif.Model.Run
import Mathlib.Tactic.SplitIfs

/-!
# C141: a run writes its results, logs what its processes say, and leaves nothing behind
-/

namespace Verif.Props
open Verif Verif.Run

variable {M T O : Type}

/-! ## Messages -/

/-- Specification: what the main log has from process `i`. -/
def loggedFrom (i : Nat) (main : List (Nat × List M)) : List M := (main.filter fun p => p.1 = i).flatMap (·.2)

/-- Specification: what is written to a file during a job. -/
def writtenTo (fn : String) (writes : List (String × List M)) : List M := (writes.filter fun p => p.1 = fn).flatMap (·.2)

/-- Specification: the jobs of a run, one after the other; exceptions are caught by the caller. -/
def jobs (logfiles : List String) (js : List (List (String × List M) × Option PyErr)) (s : Logs M) : Logs M :=
  js.foldl (fun s j => (poolJob logfiles j.1 j.2 s).2) s

/-- Specification: the content of a file. -/
def content (fs : PyDict String (List M)) (fn : String) : List M := (fs.get? fn).getD []

theorem emit_content (fs : PyDict String (List M)) (p : String × List M) (fn : String) :
    content (emit fs p) fn = content fs fn ++ (if p.1 = fn then p.2 else []) := by
  unfold content emit
  rw [PyDict.get?_set]
  by_cases h : p.1 = fn
  · subst h; simp
  · simp [h]

theorem emits_content (ws : List (String × List M)) (fs : PyDict String (List M)) (fn : String) :
    content (ws.foldl emit fs) fn = content fs fn ++ writtenTo fn ws := by
  induction ws generalizing fs with
  | nil => simp [writtenTo]
  | cons p r ih =>
    rw [List.foldl_cons, ih, emit_content]
    unfold writtenTo
    by_cases h : p.1 = fn <;> simp [h]

theorem emits_contains (ws : List (String × List M)) (fs : PyDict String (List M)) (fn : String)
    (h : fs.contains fn = true) : (ws.foldl emit fs).contains fn = true := by
  induction ws generalizing fs with
  | nil => exact h
  | cons p r ih =>
    refine ih _ ?_
    unfold PyDict.contains emit at *
    rw [PyDict.get?_set]
    split_ifs
    · rfl
    · exact h

/-- The log files are read from the `j`-th on. -/
theorem consolidate_spec (fns : List String) (hn : fns.Nodup) (j : Nat) (s : Logs M)
    (hf : ∀ fn ∈ fns, s.files.contains fn = true) :
    (consolidate j fns s).1 = .ok () ∧
      (∀ fn, content (consolidate j fns s).2.files fn = if fn ∈ fns then [] else content s.files fn) ∧
      (∀ fn, s.files.contains fn = true → (consolidate j fns s).2.files.contains fn = true) ∧
      (∀ k (h : k < fns.length), loggedFrom (j + k) (consolidate j fns s).2.main =
        loggedFrom (j + k) s.main ++ content s.files fns[k]) ∧
      ∀ i, i < j → loggedFrom i (consolidate j fns s).2.main = loggedFrom i s.main := by
  induction fns generalizing j s with
  | nil => exact ⟨rfl, fun fn => by simp [consolidate], fun fn h => h, fun k h => by simp at h, fun i _ => rfl⟩
  | cons a r ih =>
    have ha := hf a (by simp)
    obtain ⟨msgs, hm⟩ := Option.isSome_iff_exists.mp ha
    have hc : ∀ fn, s.files.contains fn = true → (s.files.set a []).contains fn = true := by
      intro fn h
      unfold PyDict.contains at *
      rw [PyDict.get?_set]
      split_ifs
      · rfl
      · exact h
    obtain ⟨h1, h2, h3, h4, h5⟩ := ih (List.nodup_cons.mp hn).2 (j + 1) ⟨s.files.set a [], s.main ++ [(j, msgs)]⟩
      (fun fn hfn => hc fn (hf fn (by simp [hfn])))
    have hrun : consolidate j (a :: r) s = consolidate (j + 1) r ⟨s.files.set a [], s.main ++ [(j, msgs)]⟩ := by
      rw [consolidate, hm]
    have har := (List.nodup_cons.mp hn).1
    rw [hrun]
    refine ⟨h1, ?_, fun fn h => h3 fn (hc fn h), ?_, ?_⟩
    · intro fn
      rw [h2]
      unfold content
      rw [PyDict.get?_set]
      by_cases e : fn ∈ r
      · simp [e]
      · by_cases e' : a = fn
        · simp [e, e']
        · simp [e, e', Ne.symm e']
    · intro k hk
      have happ : ∀ i, loggedFrom i (s.main ++ [(j, msgs)]) = loggedFrom i s.main ++ (if j = i then msgs else []) := by
        intro i
        unfold loggedFrom
        by_cases e : j = i <;> simp [e]
      cases k with
      | zero =>
        rw [Nat.add_zero, h5 j (by omega)]
        simp only [happ, if_true, List.getElem_cons_zero]
        unfold content
        rw [hm]
        rfl
      | succ k =>
        have := h4 k (by simpa using hk)
        rw [show j + (k + 1) = j + 1 + k by omega, this]
        simp only [happ]
        rw [if_neg (by omega), List.append_nil]
        congr 1
        unfold content
        rw [PyDict.get?_set, if_neg]
        · rfl
        · intro e
          exact har (e ▸ List.getElem_mem _)
    · intro i hi
      rw [h5 i (by omega)]
      unfold loggedFrom
      have : j ≠ i := by omega
      simp [this]

/-- **C141 (messages are conserved).** After any sequence of jobs, some of which may raise, the messages of every process are,
in their order, those in the main log under its number followed by those still in its file: none is lost, repeated or given to
another process. -/
theorem c141_messages (logfiles : List String) (hn : logfiles.Nodup) (js : List (List (String × List M) × Option PyErr))
    (s : Logs M) (hf : ∀ fn ∈ logfiles, s.files.contains fn = true) (i : Nat) (hi : i < logfiles.length) :
    loggedFrom i (jobs logfiles js s).main ++ content (jobs logfiles js s).files logfiles[i] =
      loggedFrom i s.main ++ content s.files logfiles[i] ++ js.flatMap (fun j => writtenTo logfiles[i] j.1) := by
  induction js generalizing s with
  | nil => simp [jobs]
  | cons j r ih =>
    have hstep : (∀ fn ∈ logfiles, (poolJob logfiles j.1 j.2 s).2.files.contains fn = true) ∧
        loggedFrom i (poolJob logfiles j.1 j.2 s).2.main ++ content (poolJob logfiles j.1 j.2 s).2.files logfiles[i] =
          loggedFrom i s.main ++ content s.files logfiles[i] ++ writtenTo logfiles[i] j.1 := by
      unfold poolJob
      have hf' : ∀ fn ∈ logfiles, (j.1.foldl emit s.files).contains fn = true :=
        fun fn h => emits_contains _ _ _ (hf fn h)
      cases j.2 with
      | some e => exact ⟨hf', by simp only [emits_content, List.append_assoc]⟩
      | none =>
        obtain ⟨-, h2, h3, h4, -⟩ := consolidate_spec logfiles hn 0 ⟨j.1.foldl emit s.files, s.main⟩ hf'
        refine ⟨fun fn h => h3 fn (hf' fn h), ?_⟩
        have := h4 i hi
        rw [Nat.zero_add] at this
        rw [this, h2, if_pos (List.getElem_mem _), emits_content]
        simp only [List.append_nil, List.append_assoc]
    have hr := ih _ hstep.1
    have hj : jobs logfiles (j :: r) s = jobs logfiles r (poolJob logfiles j.1 j.2 s).2 := rfl
    rw [hj, hr, hstep.2]
    simp [List.append_assoc]

/-- **C141 (after a job).** After a job that did not raise, the main log has everything the processes wrote, and their files are
empty. -/
theorem c141_after_job (logfiles : List String) (hn : logfiles.Nodup) (js : List (List (String × List M) × Option PyErr))
    (ws : List (String × List M)) (s : Logs M) (hf : ∀ fn ∈ logfiles, s.files.contains fn = true) (i : Nat)
    (hi : i < logfiles.length) (hs : content s.files logfiles[i] = []) :
    loggedFrom i (jobs logfiles (js ++ [(ws, none)]) s).main =
      loggedFrom i s.main ++ (js.flatMap (fun j => writtenTo logfiles[i] j.1) ++ writtenTo logfiles[i] ws) ∧
    content (jobs logfiles (js ++ [(ws, none)]) s).files logfiles[i] = [] := by
  have hall := c141_messages logfiles hn (js ++ [(ws, none)]) s hf i hi
  have hc : ∀ (js : List (List (String × List M) × Option PyErr)) (s : Logs M),
      (∀ fn ∈ logfiles, s.files.contains fn = true) → ∀ fn ∈ logfiles, (jobs logfiles js s).files.contains fn = true := by
    intro js
    induction js with
    | nil => intro s h; exact h
    | cons j r ih =>
      intro s h
      refine ih (poolJob logfiles j.1 j.2 s).2 ?_
      have hf' : ∀ fn ∈ logfiles, (j.1.foldl emit s.files).contains fn = true :=
        fun fn h' => emits_contains _ _ _ (h fn h')
      unfold poolJob
      cases j.2 with
      | some e => exact hf'
      | none => exact fun fn h' => (consolidate_spec logfiles hn 0 ⟨_, s.main⟩ hf').2.2.1 fn (hf' fn h')
  have hempty : content (jobs logfiles (js ++ [(ws, none)]) s).files logfiles[i] = [] := by
    unfold jobs
    rw [List.foldl_append]
    show content (poolJob logfiles ws none (jobs logfiles js s)).2.files logfiles[i] = []
    unfold poolJob
    have hf' : ∀ fn ∈ logfiles, (ws.foldl emit (jobs logfiles js s).files).contains fn = true :=
      fun fn h => emits_contains _ _ _ (hc js s hf fn h)
    show content (consolidate 0 logfiles ⟨_, _⟩).2.files logfiles[i] = []
    rw [(consolidate_spec logfiles hn 0 ⟨_, (jobs logfiles js s).main⟩ hf').2.1, if_pos (List.getElem_mem _)]
  refine ⟨?_, hempty⟩
  rw [hempty, hs] at hall
  simpa using hall

/-- Two processes, a job that raises and one that does not. -/
example : (jobs ["mp-handler-7.log", "mp-handler-8.log"] [([("mp-handler-7.log", ["a"]), ("mp-handler-8.log", ["b"])], some .other),
    ([("mp-handler-7.log", ["c"])], none)] ⟨⟨[("mp-handler-7.log", []), ("mp-handler-8.log", [])]⟩, []⟩).main =
      [(0, ["a", "c"]), (1, ["b"])] := by decide +kernel

theorem consolidate_other (fns : List String) (j : Nat) (s : Logs M) (fn : String) (h : fn ∉ fns) :
    content (consolidate j fns s).2.files fn = content s.files fn := by
  induction fns generalizing j s with
  | nil => rfl
  | cons a r ih =>
    rw [consolidate]
    cases s.files.get? a with
    | none => rfl
    | some m =>
      simp only
      rw [ih _ _ (fun h' => h (by simp [h']))]
      unfold content
      rw [PyDict.get?_set, if_neg (fun e => h (by simp [e]))]

theorem removeLogs_other (fns : List String) (fs : PyDict String (List M)) (fn : String) (h : fn ∉ fns) :
    content (removeLogs fns fs).2 fn = content fs fn := by
  induction fns generalizing fs with
  | nil => rfl
  | cons a r ih =>
    rw [removeLogs]
    split_ifs
    · rw [ih _ (fun h' => h (by simp [h']))]
      unfold content
      rw [PyDict.get?_erase, if_neg (fun e => h (by simp [e]))]
    · rfl

/-- **C141 is violated when a process is replaced**: the log files are those of the processes at the start. A process that takes
the place of one that ended writes to a file that is never read and never removed. -/
theorem c141_violated_replaced (logfiles : List String) (fn : String) (h : fn ∉ logfiles)
    (js : List (List (String × List M) × Option PyErr)) (s : Logs M) :
    content (removeLogs logfiles (jobs logfiles js s).files).2 fn =
      content s.files fn ++ js.flatMap (fun j => writtenTo fn j.1) := by
  rw [removeLogs_other _ _ _ h]
  induction js generalizing s with
  | nil => simp [jobs]
  | cons j r ih =>
    have hj : jobs logfiles (j :: r) s = jobs logfiles r (poolJob logfiles j.1 j.2 s).2 := rfl
    rw [hj, ih]
    have : content (poolJob logfiles j.1 j.2 s).2.files fn = content s.files fn ++ writtenTo fn j.1 := by
      unfold poolJob
      cases j.2 with
      | some e => exact emits_content _ _ _
      | none =>
        show content (consolidate 0 logfiles ⟨_, _⟩).2.files fn = _
        rw [consolidate_other _ _ _ _ h]
        exact emits_content _ _ _
    rw [this]
    simp [List.append_assoc]

/-! ## Levels -/

/-- **C141** (lines of the log): the log file is written by the logger of the package with time, level, name, function, line and message, and only the
level, name and message go to the console, and there only if it was asked for. -/
theorem c141_format (f : String) (verbose : Nat) : ∃ a b, setUp (some f) verbose false = .ok a ∧ setUp (some f) verbose true = .ok b ∧
    a.package = [⟨some f, Dispatch.level verbose, some "%(asctime)s [%(levelname)s](%(name)s:%(funcName)s:%(lineno)d): %(message)s"⟩] ∧
    b.package = a.package ++ [⟨none, Dispatch.level verbose, some "[%(levelname)s](%(name)s): %(message)s"⟩] ∧
    a.level = Dispatch.level verbose ∧ b.level = a.level :=
  ⟨_, _, rfl, rfl, rfl, rfl, rfl, rfl⟩

/-- **C141 is violated for the level of the processes**: whatever verbosity is asked for, the processes of the pool use the
level 30 of warnings, because the handlers are looked for at the root logger, where the command line puts none. -/
theorem c141_violated_verbosity (f : String) (verbose : Nat) (console : Bool) :
    ∃ l, setUp (some f) verbose console = .ok l ∧ l.level = Dispatch.level verbose ∧
      ∃ e, extractRoot l.root = .ok e ∧ workerLevel e = 30 :=
  ⟨_, rfl, rfl, none, rfl, rfl⟩

/-- By default, or with two or more flags `-v`, the main process logs messages that the processes of the pool do not. -/
theorem c141_quiet_workers (verbose : Nat) (h : verbose ≠ 1) : Dispatch.level verbose < 30 := by
  unfold Dispatch.level
  split_ifs
  · omega
  · omega
  · omega

/-- **C141 is violated with one flag `-v`**, which asks for warnings: what the processes wrote is handed to the main log at the
level of information, which it then leaves out, and their files are emptied. -/
theorem c141_violated_warnings (verbose : Nat) (s : Logs M) :
    (verbose ≠ 1 → shown (Dispatch.level verbose) s.main = s.main) ∧ shown (Dispatch.level 1) s.main = [] := by
  refine ⟨fun h => ?_, rfl⟩
  unfold shown
  rw [if_pos]
  unfold Dispatch.level
  split_ifs
  · omega
  · omega
  · omega

/-- **C141 (levels).** With a file handler at the root logger the processes use its level, the last one if there are several. -/
theorem c141_levels (hs : List Handler) (h : Handler) (fn fmt : String) (hf : h.file = some fn) (hm : h.format = some fmt)
    (hall : ∀ g ∈ hs, g.file.isSome = true → g.format.isSome = true) :
    ∃ e, extractRoot (hs ++ [h]) = .ok e ∧ workerLevel e = h.level := by
  refine ⟨some (h.level, fmt), ?_, rfl⟩
  unfold extractRoot
  generalize (none : Option (Nat × String)) = r
  induction hs generalizing r with
  | nil => simp [scanRoot, hf, hm]
  | cons g t ih =>
    rw [List.cons_append, scanRoot]
    have ih' := ih (fun g' hg' => hall g' (by simp [hg']))
    cases hg : g.file with
    | none => exact ih' r
    | some a =>
      obtain ⟨b, hb⟩ := Option.isSome_iff_exists.mp (hall g (by simp) (by rw [hg]; rfl))
      simp only [hb]
      exact ih' _

/-- **C141 is violated by the flag `--log`** without a name, which the parser accepts: the program stops with a `TypeError`. -/
theorem c141_violated_log (verbose : Nat) (console : Bool) :
    setUp (LogFlag.parsed .bare) verbose console = .error .typeError ∧
      (∃ l, setUp (LogFlag.parsed .absent) verbose console = .ok l) ∧
      ∀ s, ∃ l, setUp (LogFlag.parsed (.named s)) verbose console = .ok l :=
  ⟨rfl, ⟨_, rfl⟩, fun _ => ⟨_, rfl⟩⟩

/-- **C141 is violated by `batch_jobs`**: without a file handler at the root logger it raises, and the root logger has lost its
handlers. -/
theorem c141_violated_batch (root : List Handler) (h : ∀ g ∈ root, g.file = none) :
    batchStart root = (.error .unboundLocal, []) := by
  have : scanRoot root none = .ok none := by
    induction root with
    | nil => rfl
    | cons g t ih =>
      rw [scanRoot, h g (by simp)]
      exact ih fun g' hg' => h g' (by simp [hg'])
  unfold batchStart
  rw [this]

/-! ## Runs -/

theorem removeLogs_all (fns : List String) (hn : fns.Nodup) (fs : PyDict String (List M))
    (h : ∀ fn ∈ fns, fs.contains fn = true) :
    (removeLogs fns fs).1 = .ok () ∧ ∀ fn ∈ fns, (removeLogs fns fs).2.contains fn = false := by
  induction fns generalizing fs with
  | nil => exact ⟨rfl, fun _ h => by cases h⟩
  | cons a r ih =>
    obtain ⟨har, hnr⟩ := List.nodup_cons.mp hn
    have he : ∀ fn ∈ r, (fs.erase a).contains fn = true := by
      intro fn hfn
      have := h fn (by simp [hfn])
      unfold PyDict.contains at *
      rw [PyDict.get?_erase, if_neg (fun e : a = fn => har (e ▸ hfn))]
      exact this
    rw [removeLogs, if_pos (h a (by simp))]
    obtain ⟨h1, h2⟩ := ih hnr (fs.erase a) he
    refine ⟨h1, ?_⟩
    intro fn hfn
    rcases List.mem_cons.mp hfn with e | e
    · subst e
      have : ∀ (l : List String) (g : PyDict String (List M)), g.contains fn = false →
          (removeLogs l g).2.contains fn = false := by
        intro l
        induction l with
        | nil => intro g hg; exact hg
        | cons b t ih' =>
          intro g hg
          rw [removeLogs]
          split_ifs
          · refine ih' _ ?_
            unfold PyDict.contains at *
            rw [PyDict.get?_erase]
            split_ifs
            · rfl
            · exact hg
          · exact hg
      refine this r _ ?_
      unfold PyDict.contains
      rw [PyDict.get?_erase, if_pos rfl]
      rfl
    · exact h2 fn e

/-- **C141 (a successful run).** When nothing raises, the results are in the file asked for (`despasito_out.txt` if none is), the
processes have ended and their log files are gone. -/
theorem c141_run (p : Parts M T O) (j : Job) (w : World M T) (isFit : Bool) (file : Option String) (o : O) (logs : Logs M)
    (t : T) (h1 : p.read = .ok (isFit, file)) (h2 : p.eos = .ok ()) (h3 : p.compute w.logs = (.ok o, logs))
    (h4 : (if isFit then p.fitLines o else p.tabulate o) = .ok t) (hn : j.logfiles.Nodup)
    (hl : j.useMp = true → ∀ fn ∈ j.logfiles, logs.files.contains fn = true) (ho : j.useMp = false → w.open' = false) :
    (run p (some j) w).1 = .ok () ∧ (run p (some j) w).2.output = some (Dispatch.outputFile file, t) ∧
      (run p (some j) w).2.open' = false ∧ (run p (some j) w).2.logs.main = logs.main ∧
      (j.useMp = true → ∀ fn ∈ j.logfiles, (run p (some j) w).2.logs.files.contains fn = false) := by
  have hrun : run p (some j) w = endPool j ⟨logs, w.open', some (Dispatch.outputFile file, t)⟩ := by
    unfold run
    simp only [h1, h2, h3]
    cases isFit with
    | true =>
      have h4' : p.fitLines o = .ok t := h4
      simp only [h4', if_true]
    | false =>
      have h4' : p.tabulate o = .ok t := h4
      simp only [h4', Bool.false_eq_true, if_false]
  rw [hrun]
  unfold endPool
  cases hm : j.useMp with
  | false => exact ⟨rfl, rfl, ho hm, rfl, fun h => by cases h⟩
  | true =>
    obtain ⟨r1, r2⟩ := removeLogs_all j.logfiles hn logs.files (hl hm)
    exact ⟨r1, rfl, rfl, rfl, fun _ => r2⟩

/-- **C141 is violated by every failing run**: whatever raises before the end, the processes keep running and no log file is
removed. -/
theorem c141_violated_failure (p : Parts M T O) (j : Job) (w : World M T) (isFit : Bool) (file : Option String)
    (h1 : p.read = .ok (isFit, file)) (e : PyErr) (h : p.eos = .error e ∨ (p.compute w.logs).1 = .error e) :
    ∃ e', (run p (some j) w).1 = .error e' ∧ (run p (some j) w).2.open' = w.open' ∧
      ((run p (some j) w).2.logs = w.logs ∨ (run p (some j) w).2.logs = (p.compute w.logs).2) := by
  unfold run
  simp only [h1]
  cases h2 : p.eos with
  | error e' => exact ⟨e', rfl, rfl, .inl rfl⟩
  | ok _ =>
    have h3 : (p.compute w.logs).1 = .error e := h.resolve_left (by rw [h2]; exact fun h => by cases h)
    simp only [h3]
    exact ⟨e, by simp, by simp, by simp⟩

/-- **C141 is violated for results that do not fit in a table**: the run succeeds and there is no file with results. -/
theorem c141_violated_lost (p : Parts M T O) (j : Job) (w : World M T) (file : Option String) (o : O) (logs : Logs M)
    (e : PyErr) (h1 : p.read = .ok (false, file)) (h2 : p.eos = .ok ()) (h3 : p.compute w.logs = (.ok o, logs))
    (h4 : p.tabulate o = .error e) (hn : j.logfiles.Nodup)
    (hl : j.useMp = true → ∀ fn ∈ j.logfiles, logs.files.contains fn = true) :
    (run p (some j) w).1 = .ok () ∧ (run p (some j) w).2.output = w.output := by
  have hrun : run p (some j) w = endPool j ⟨logs, w.open', w.output⟩ := by
    unfold run
    simp only [h1, h2, h3, h4, Bool.false_eq_true, if_false]
  rw [hrun]
  unfold endPool
  cases hm : j.useMp with
  | false => exact ⟨rfl, rfl⟩
  | true => exact ⟨(removeLogs_all j.logfiles hn logs.files (hl hm)).1, rfl⟩

/-- Such results: a quantity that is an array for one point and a number for the next. -/
example : ∃ e, Dispatch.writeThermo "flash" [("T", [Dispatch.Cell.num (300 : Nat), .num 310]), ("yi", [.arr [1, 2], .num 0])] = .error e :=
  ⟨_, rfl⟩

/-- **C141 is violated in python**: `run` without a `MultiprocessingObject`, which its documentation does not ask for, raises a
`KeyError` once the input is read. -/
theorem c141_violated_no_pool (p : Parts M T O) (w : World M T) (r : Bool × Option String) (h : p.read = .ok r) :
    run p none w = (.error .keyError, w) := by
  unfold run
  rw [h]

end Verif.Props
