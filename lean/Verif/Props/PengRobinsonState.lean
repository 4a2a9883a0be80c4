import Verif.Proofs.PengRobinson
import Mathlib.Tactic.NormNum
import Mathlib.Tactic.Linarith

/-! # C13: refreshing a Peng-Robinson object -/

namespace Verif.Props
open Verif Verif.Interface Verif.PengRobinson

variable {V : Type} [DecidableEq V] (F : Formulas V)

/-- The library a user would write down after the updates of a history: only the updates, nothing
derived by the object. -/
def userLib (lib : ℕ → Dict V) : List (Op V) → ℕ → Dict V
  | [] => lib
  | .self i p v :: r => userLib (fun j => if j = i then (lib i).set p v else lib j) r
  | _ :: r => userLib lib r

/-- The cross library after the updates of a history. -/
def userCross (cross : PyDict ℕ (PyDict ℕ (PyDict String V))) :
    List (Op V) → PyDict ℕ (PyDict ℕ (PyDict String V))
  | [] => cross
  | .cross i j p v :: r => userCross (setCross cross i j p v) r
  | _ :: r => userCross cross r

/-- Updates covered by the partial theorem: κ is not a fitted parameter (the base class refuses it),
and ω is not updated unless the user supplied κ, in which case ω plays no role. -/
def Allowed (lib0 : ℕ → Dict V) : Op V → Prop
  | .self i p _ => p ≠ "kappa" ∧ (p = "omega" → (lib0 i).get? "kappa" ≠ none)
  | _ => True

/-- Two objects agree in everything that evaluations use. -/
def Agree (s s' : State V) : Prop :=
  s.n = s'.n ∧ (∀ i < s.n, s.ai i = s'.ai i ∧ s.bi i = s'.bi i ∧ s.alpha i = s'.alpha i) ∧
    ∀ i < s.n, ∀ j < s.n, s.kij i j = s'.kij i j

/-- Invariant: relation of the object with the user's view `U`, `X` of the libraries. -/
structure Inv (lib0 : ℕ → Dict V) (n : ℕ) (U : ℕ → Dict V)
    (X : PyDict ℕ (PyDict ℕ (PyDict String V))) (s : State V) : Prop where
  n_eq : s.n = n
  cross_eq : s.cross = X
  crit : s.testCritical = fun i => (lib0 i).contains "Tc" && (lib0 i).contains "Pc"
  par : s.testParameters = fun i => (lib0 i).contains "ai" && (lib0 i).contains "bi"
  start : ∀ i < n, (s.testCritical i || s.testParameters i) = true
  plain : ∀ i < n, ∀ q, q ≠ "kappa" → q ≠ "ai" → q ≠ "bi" → (s.lib i).get? q = (U i).get? q
  kap : ∀ i < n, (s.lib i).get? "kappa" = kapE F (U i)
  ab : ∀ i < n, (s.testCritical i && !s.testParameters i) = false →
    (s.lib i).get? "ai" = (U i).get? "ai" ∧ (s.lib i).get? "bi" = (U i).get? "bi"
  kap0 : ∀ i, (lib0 i).get? "kappa" ≠ none → (U i).get? "kappa" ≠ none
  keep : ∀ i q, (lib0 i).contains q = true → (U i).contains q = true
  noab : ∀ i, s.testCritical i = true → (U i).get? "ai" = (lib0 i).get? "ai" ∧
    (U i).get? "bi" = (lib0 i).get? "bi"
  kij : ∀ a b, kijValue X a b = none → s.kij a b = F.zero

omit [DecidableEq V] in
theorem c13_kapE_set (d : Dict V) (p : String) (v : V) (h1 : p ≠ "kappa")
    (h2 : p = "omega" → d.get? "kappa" ≠ none) : kapE F (d.set p v) = kapE F d := by
  unfold kapE
  rw [PyDict.get?_set_ne _ _ h1]
  by_cases ho : p = "omega"
  · subst ho
    cases h : d.get? "kappa" with
    | none => exact absurd h (h2 rfl)
    | some k => rfl
  · rw [PyDict.get?_set_ne _ _ ho]

omit [DecidableEq V] in
/-- What a refresh does, given that it succeeds. -/
theorem c13_refresh_ok (s s' : State V) (h : refresh F s = .ok s') :
    s'.n = s.n ∧ s'.cross = s.cross ∧ s'.testCritical = s.testCritical ∧
      s'.testParameters = s.testParameters ∧ s'.T = s.T ∧
      s'.kij = refreshKij s.n s.cross s.kij ∧
      (∀ i < s.n, refreshGroup F (s.testCritical i) (s.testParameters i) (s.lib i) =
        .ok (s'.lib i, s'.ai i, s'.bi i)) ∧
      (∀ t, s.T = some t → ∀ i < s.n, groupAlpha F (s'.lib i) t = .ok (s'.alpha i)) := by
  unfold refresh at h
  cases hg : refreshGroups F (List.range s.n) s with
  | error e => rw [hg] at h; cases h
  | ok t =>
    rw [hg] at h
    obtain ⟨h1, h2, h3, h4, h5, h6, h7, h8, _⟩ :=
      refreshGroups_ok F _ List.nodup_range s t hg
    have h8' : ∀ i < s.n, refreshGroup F (s.testCritical i) (s.testParameters i) (s.lib i) =
        .ok (t.lib i, t.ai i, t.bi i) := fun i hi => h8 i (List.mem_range.mpr hi)
    simp only at h
    cases hT : t.T with
    | none =>
      rw [hT] at h
      cases h
      refine ⟨h1, h2, h3, h4, by rw [← h7, hT], rfl, h8', ?_⟩
      intro u hu; rw [← h7, hT] at hu; cases hu
    | some T =>
      rw [hT] at h
      simp only at h
      cases ha : calcAlpha F t.lib T (List.range s.n) t.alpha with
      | error e => rw [ha] at h; cases h
      | ok al =>
        rw [ha] at h
        cases h
        refine ⟨h1, h2, h3, h4, by rw [← h7, hT], rfl, h8', ?_⟩
        intro u hu i hi
        rw [← h7, hT] at hu
        injection hu with hu
        subst hu
        exact (calcAlpha_ok F _ _ _ List.nodup_range _ _ ha).1 i (List.mem_range.mpr hi)

omit [DecidableEq V] in
/-- The invariant survives a refresh. -/
theorem c13_refresh_inv (lib0 : ℕ → Dict V) (n : ℕ) (U : ℕ → Dict V)
    (X : PyDict ℕ (PyDict ℕ (PyDict String V))) (s s' : State V) (hI : Inv F lib0 n U X s)
    (h : refresh F s = .ok s') : Inv F lib0 n U X s' := by
  obtain ⟨h1, h2, h3, h4, h5, h6, h7, h8⟩ := c13_refresh_ok F s s' h
  have hn := hI.n_eq
  have hg : ∀ i < n, _ := fun i hi => refreshGroup_ok F _ _ _ _ _ _ (h7 i (by rw [hn]; exact hi))
  refine ⟨by rw [h1, hn], by rw [h2, hI.cross_eq], by rw [h3, hI.crit], by rw [h4, hI.par],
    by rw [h3, h4]; exact hI.start, ?_, ?_, ?_, hI.kap0, hI.keep, by rw [h3]; exact hI.noab, ?_⟩
  · intro i hi q q1 q2 q3
    rw [(hg i hi).2.2.2.1 q q1 q2 q3, hI.plain i hi q q1 q2 q3]
  · intro i hi
    rw [(hg i hi).2.2.1]
    unfold kapE
    rw [hI.kap i hi, hI.plain i hi "omega" (by decide) (by decide) (by decide)]
    unfold kapE
    cases (U i).get? "kappa" <;> cases (U i).get? "omega" <;> rfl
  · rw [h3, h4]
    intro i hi hc
    obtain ⟨ha, hb⟩ := (hg i hi).2.2.2.2 hc
    rw [ha, hb]; exact hI.ab i hi hc
  · intro a b hv
    rw [h6, hI.cross_eq]
    unfold refreshKij
    rw [(kijFold X _ s.kij s.kij a b).1 hv]
    exact hI.kij a b hv

/-- The invariant along a history. -/
theorem c13_run_inv (lib0 : ℕ → Dict V) (n : ℕ) (ops : List (Op V)) (U : ℕ → Dict V)
    (X : PyDict ℕ (PyDict ℕ (PyDict String V))) (s s' : State V) (hI : Inv F lib0 n U X s)
    (hops : ∀ o ∈ ops, Allowed lib0 o) (h : run F s ops = .ok s') :
    Inv F lib0 n (userLib U ops) (userCross X ops) s' := by
  induction ops generalizing U X s with
  | nil => cases h; exact hI
  | cons o r ih =>
    unfold run at h
    cases hs : step F s o with
    | error e => rw [hs] at h; cases h
    | ok t =>
      rw [hs] at h
      simp only at h
      have hr : ∀ o ∈ r, Allowed lib0 o := fun o ho => hops o (List.mem_cons_of_mem _ ho)
      have ho := hops o (by simp)
      cases o with
      | refresh => exact ih U X t (c13_refresh_inv F lib0 n U X s t hI hs) hr h
      | eval T =>
        refine ih U X t ?_ hr h
        simp only [step, ensureT] at hs
        split at hs
        · cases hs; exact hI
        · split at hs
          · cases hs
          · cases hs
            exact ⟨hI.n_eq, hI.cross_eq, hI.crit, hI.par, hI.start, hI.plain, hI.kap, hI.ab, hI.kap0,
              hI.keep, hI.noab, hI.kij⟩
      | cross i j p v =>
        refine ih U (setCross X i j p v) t ?_ hr h
        simp only [step, updateCross] at hs
        split at hs
        · cases hs
        · cases hs
          refine ⟨hI.n_eq, by rw [hI.cross_eq], hI.crit, hI.par, hI.start, hI.plain, hI.kap, hI.ab,
            hI.kap0, hI.keep, hI.noab, ?_⟩
          intro a b hv
          exact hI.kij a b (kijValue_mono X i j p v a b hv)
      | self i p v =>
        refine ih (fun j => if j = i then (U i).set p v else U j) X t ?_ hr h
        simp only [step, updateSelf] at hs
        obtain ⟨hp1, hp2⟩ := ho
        split at hs
        · cases hs
        · rename_i hrej
          cases hs
          refine ⟨hI.n_eq, hI.cross_eq, hI.crit, hI.par, hI.start, ?_, ?_, ?_, ?_, ?_, ?_, hI.kij⟩
          · intro k hk q q1 q2 q3
            by_cases hki : k = i
            · subst hki
              simp only [if_true, PyDict.get?_set, hI.plain k hk q q1 q2 q3]
            · simp only [hki, if_false]; exact hI.plain k hk q q1 q2 q3
          · intro k hk
            by_cases hki : k = i
            · subst hki
              simp only [if_true]
              rw [PyDict.get?_set_ne _ _ hp1, hI.kap k hk, c13_kapE_set F _ _ _ hp1]
              intro e; exact hI.kap0 k (hp2 e)
            · simp only [hki, if_false]; exact hI.kap k hk
          · intro k hk hc
            obtain ⟨ha, hb⟩ := hI.ab k hk hc
            by_cases hki : k = i
            · subst hki
              simp only [if_true, PyDict.get?_set, ha, hb, and_self]
            · simp only [hki, if_false]; exact ⟨ha, hb⟩
          · intro k hk
            by_cases hki : k = i
            · subst hki
              simp only [if_true]
              rw [PyDict.get?_set_ne _ _ hp1]; exact hI.kap0 k hk
            · simp only [hki, if_false]; exact hI.kap0 k hk
          · intro k q hk
            by_cases hki : k = i
            · subst hki
              simp only [if_true, PyDict.contains, PyDict.get?_set]
              split
              · rfl
              · exact hI.keep k q hk
            · simp only [hki, if_false]; exact hI.keep k q hk
          · intro k hk
            obtain ⟨ha, hb⟩ := hI.noab k hk
            by_cases hki : k = i
            · subst hki
              have hpa : p ≠ "ai" := fun e => hrej ⟨Or.inl e, hk⟩
              have hpb : p ≠ "bi" := fun e => hrej ⟨Or.inr e, hk⟩
              simp only [if_true]
              rw [PyDict.get?_set_ne _ _ hpa, PyDict.get?_set_ne _ _ hpb]
              exact ⟨ha, hb⟩
            · simp only [hki, if_false]; exact ⟨ha, hb⟩

omit [DecidableEq V] in
theorem c13_run_append [DecidableEq V] (s s' : State V) (ops : List (Op V)) (o : Op V)
    (h : run F s (ops ++ [o]) = .ok s') :
    ∃ t, run F s ops = .ok t ∧ step F t o = .ok s' := by
  induction ops generalizing s with
  | nil =>
    simp only [List.nil_append, run] at h
    cases hs : step F s o with
    | error e => rw [hs] at h; cases h
    | ok t => rw [hs] at h; exact ⟨s, rfl, by cases h; exact hs⟩
  | cons a r ih =>
    simp only [List.cons_append, run] at h ⊢
    cases hs : step F s a with
    | error e => rw [hs] at h; cases h
    | ok t => rw [hs] at h; exact ih t h

omit [DecidableEq V] in
theorem c13_contains_congr (d d' : Dict V) (q : String) (h : d.get? q = d'.get? q) :
    d.contains q = d'.contains q := by unfold PyDict.contains; rw [h]

/-- **C13, partial.** After any history of allowed updates, refreshes and evaluations that ends with a
refresh, a new object can be built from the user's current parameters, and evaluating either object at
any temperature fails in the same way or uses the same a, b, α and kij. -/
theorem c13_fresh_partial (lib0 : ℕ → Dict V) (n : ℕ) (cross0 : PyDict ℕ (PyDict ℕ (PyDict String V)))
    (ops : List (Op V)) (hops : ∀ o ∈ ops, Allowed lib0 o) (s0 s1 : State V)
    (h0 : build F n lib0 cross0 = .ok s0) (h1 : run F s0 (ops ++ [.refresh]) = .ok s1) :
    ∃ s2, build F n (userLib lib0 ops) (userCross cross0 ops) = .ok s2 ∧
      ∀ T, (∃ e, ensureT F s1 T = .error e ∧ ensureT F s2 T = .error e) ∨
        ∃ t1 t2, ensureT F s1 T = .ok t1 ∧ ensureT F s2 T = .ok t2 ∧ Agree t1 t2 := by
  -- the freshly built object satisfies the invariant
  have hI0 : Inv F lib0 n lib0 cross0 s0 := by
    unfold build at h0
    simp only at h0
    split at h0
    · rename_i hall
      have hb : Inv F lib0 n lib0 cross0 s0 := by
        obtain ⟨g1, g2, g3, g4, g5, g6, g7, g8⟩ := c13_refresh_ok F _ s0 h0
        simp only at g1 g2 g3 g4 g5 g6 g7
        have hg : ∀ i < n, _ := fun i hi => refreshGroup_ok F _ _ _ _ _ _ (g7 i hi)
        refine ⟨g1, g2, g3, g4, ?_, ?_, ?_, ?_, fun _ h => h, fun _ _ h => h,
          fun _ _ => ⟨rfl, rfl⟩, ?_⟩
        · intro i hi
          rw [g3, g4]
          exact List.all_eq_true.mp hall i (List.mem_range.mpr hi)
        · intro i hi q q1 q2 q3; exact (hg i hi).2.2.2.1 q q1 q2 q3
        · intro i hi; exact (hg i hi).2.2.1
        · intro i hi hc
          rw [g3, g4] at hc
          exact (hg i hi).2.2.2.2 hc
        · intro a b hv
          rw [g6]
          unfold refreshKij
          rw [(kijFold cross0 _ (fun _ _ => F.zero) (fun _ _ => F.zero) a b).1 hv]
      exact hb
    · cases h0
  obtain ⟨t, ht, hstep⟩ := c13_run_append F s0 s1 ops .refresh h1
  have hIt := c13_run_inv F lib0 n ops lib0 cross0 s0 t hI0 hops ht
  have hI1 : Inv F lib0 n (userLib lib0 ops) (userCross cross0 ops) s1 :=
    c13_refresh_inv F lib0 n _ _ t s1 hIt hstep
  obtain ⟨r1, r2, r3, r4, r5, r6, r7, r8⟩ := c13_refresh_ok F t s1 hstep
  generalize hU : userLib lib0 ops = U at *
  generalize hX : userCross cross0 ops = X at *
  have hn := hIt.n_eq
  -- whether a, b are derived is the same for the two objects
  let critU := fun i => (U i).contains "Tc" && (U i).contains "Pc"
  let parU := fun i => (U i).contains "ai" && (U i).contains "bi"
  have hflag : ∀ i < n, (critU i && !parU i) = (t.testCritical i && !t.testParameters i) ∧
      (critU i || parU i) = true := by
    intro i hi
    have hst := hIt.start i hi
    by_cases hp : t.testParameters i = true
    · have hp' : parU i = true := by
        have := hIt.par
        rw [this] at hp
        simp only [Bool.and_eq_true] at hp
        simp only [parU, Bool.and_eq_true]
        exact ⟨hIt.keep i _ hp.1, hIt.keep i _ hp.2⟩
      rw [hp, hp']; simp
    · have hp0 : t.testParameters i = false := by simpa using hp
      have hc : t.testCritical i = true := by rw [hp0] at hst; simpa using hst
      have hcU : critU i = true := by
        have h := hc
        rw [hIt.crit] at h
        simp only [Bool.and_eq_true] at h
        simp only [critU, Bool.and_eq_true]
        exact ⟨hIt.keep i _ h.1, hIt.keep i _ h.2⟩
      obtain ⟨ha, hb⟩ := hIt.noab i hc
      have hpU : parU i = false := by
        rw [hIt.par] at hp0
        simp only [parU]
        rw [c13_contains_congr _ _ _ ha, c13_contains_congr _ _ _ hb]
        exact hp0
      rw [hp0, hc, hcU, hpU]; simp
  have hflag' : ∀ i < n, ((U i).contains "Tc" && (U i).contains "Pc" &&
      !((U i).contains "ai" && (U i).contains "bi")) =
      (t.testCritical i && !t.testParameters i) := fun i hi => (hflag i hi).1
  -- a and b of the user's library
  have hab : ∀ i < n, aE F (critU i && !parU i) (U i) = some (s1.ai i) ∧
      bE F (critU i && !parU i) (U i) = some (s1.bi i) := by
    intro i hi
    obtain ⟨ga, gb, _⟩ := refreshGroup_ok F _ _ _ _ _ _ (r7 i (by rw [hn]; exact hi))
    rw [(hflag i hi).1]
    unfold aE at ga ⊢
    unfold bE at gb ⊢
    by_cases hcp : (t.testCritical i && !t.testParameters i) = true
    · rw [if_pos hcp] at ga gb ⊢
      rw [if_pos hcp]
      rw [hIt.plain i hi "Tc" (by decide) (by decide) (by decide),
        hIt.plain i hi "Pc" (by decide) (by decide) (by decide)] at ga gb
      exact ⟨ga, gb⟩
    · rw [if_neg hcp] at ga gb ⊢
      rw [if_neg hcp]
      obtain ⟨e1, e2⟩ := hIt.ab i hi (by simpa using hcp)
      rw [e1] at ga; rw [e2] at gb
      exact ⟨ga, gb⟩
  -- build the new object
  have hbuild : ∃ s2, build F n U X = .ok s2 := by
    unfold build
    simp only
    rw [if_pos (List.all_eq_true.mpr fun i hi => (hflag i (List.mem_range.mp hi)).2)]
    unfold refresh
    simp only
    obtain ⟨s', hs'⟩ := refreshGroups_exists F (List.range n) List.nodup_range
      { n := n, lib := U, cross := X, testCritical := critU, testParameters := parU,
        ai := fun _ => F.zero, bi := fun _ => F.zero, alpha := fun _ => F.zero,
        kij := fun _ _ => F.zero, T := none : State V } (by
          intro i hi
          have hi := List.mem_range.mp hi
          obtain ⟨d', hd'⟩ := refreshGroup_exists F (critU i) (parU i) (U i) _ _ (hab i hi).1
            (hab i hi).2
          exact ⟨_, hd'⟩)
    rw [hs']
    have hT := (refreshGroups_ok F _ List.nodup_range _ _ hs').2.2.2.2.2.2.1
    simp only at hT
    simp only [hT]
    exact ⟨_, rfl⟩
  obtain ⟨s2, hs2⟩ := hbuild
  refine ⟨s2, hs2, ?_⟩
  -- what the new object contains
  have hs2' := hs2
  unfold build at hs2'
  simp only at hs2'
  rw [if_pos (List.all_eq_true.mpr fun i hi => (hflag i (List.mem_range.mp hi)).2)] at hs2'
  obtain ⟨q1, q2, q3, q4, q5, q6, q7, q8⟩ := c13_refresh_ok F _ s2 hs2'
  simp only at q1 q2 q3 q4 q5 q6 q7
  have hg2 : ∀ i < n, _ := fun i hi => refreshGroup_ok F _ _ _ _ _ _ (q7 i hi)
  have hn1 : s1.n = n := by rw [r1, hn]
  have hai : ∀ i < n, s1.ai i = s2.ai i ∧ s1.bi i = s2.bi i := by
    intro i hi
    obtain ⟨ga, gb, _⟩ := hg2 i hi
    have h2 := hab i hi
    simp only [critU, parU] at h2
    rw [h2.1] at ga; rw [h2.2] at gb
    injection ga with ga; injection gb with gb
    exact ⟨ga, gb⟩
  have hkij : ∀ a < n, ∀ b < n, s1.kij a b = s2.kij a b := by
    intro a ha b hb
    rw [r6, q6, hn, hIt.cross_eq]
    exact refreshKij_congr n X _ _ a b ha hb (fun hv => hIt.kij a b hv)
  have halpha : ∀ T, ∀ i < n, groupAlpha F (s1.lib i) T = groupAlpha F (s2.lib i) T := by
    intro T i hi
    apply groupAlpha_congr
    · rw [hI1.kap i hi, (hg2 i hi).2.2.1]
    · rw [hI1.plain i hi "Tc" (by decide) (by decide) (by decide),
        (hg2 i hi).2.2.2.1 "Tc" (by decide) (by decide) (by decide)]
  -- evaluate
  intro T
  have h2T : s2.T = none := q5
  unfold ensureT
  rw [h2T, if_neg (by simp : ¬ (none : Option V) = some T), q1]
  -- the old object
  by_cases hT1 : s1.T = some T
  · rw [if_pos hT1]
    have hal1 : ∀ i < n, groupAlpha F (s1.lib i) T = .ok (s1.alpha i) := by
      intro i hi
      rw [r5] at hT1
      exact r8 T hT1 i (by rw [hn]; exact hi)
    obtain ⟨al, hal⟩ := calcAlpha_exists F s2.lib T (List.range n) s2.alpha (by
      intro i hi
      have hi := List.mem_range.mp hi
      exact ⟨_, by rw [← halpha T i hi]; exact hal1 i hi⟩)
    rw [hal]
    right
    refine ⟨_, _, rfl, rfl, hn1, ?_, ?_⟩
    · intro i hi
      rw [hn1] at hi
      refine ⟨(hai i hi).1, (hai i hi).2, ?_⟩
      have e1 := hal1 i hi
      have e2 := (calcAlpha_ok F _ _ _ List.nodup_range _ _ hal).1 i (List.mem_range.mpr hi)
      rw [halpha T i hi, e2] at e1
      injection e1 with e1
      exact e1.symm
    · intro a ha b hb
      rw [hn1] at ha hb
      exact hkij a ha b hb
  · rw [if_neg hT1, hn1]
    cases hc1 : calcAlpha F s1.lib T (List.range n) s1.alpha with
    | error e =>
      left
      obtain ⟨rfl, k, hk, e', he'⟩ := calcAlpha_error F _ _ _ _ _ hc1
      refine ⟨.keyError, rfl, ?_⟩
      cases hc2 : calcAlpha F s2.lib T (List.range n) s2.alpha with
      | error e2 => obtain ⟨rfl, _⟩ := calcAlpha_error F _ _ _ _ _ hc2; rfl
      | ok al =>
        have := (calcAlpha_ok F _ _ _ List.nodup_range _ _ hc2).1 k hk
        rw [← halpha T k (List.mem_range.mp hk), he'] at this
        cases this
    | ok al1 =>
      have e1 := (calcAlpha_ok F _ _ _ List.nodup_range _ _ hc1).1
      obtain ⟨al, hal⟩ := calcAlpha_exists F s2.lib T (List.range n) s2.alpha (by
        intro i hi
        exact ⟨_, by rw [← halpha T i (List.mem_range.mp hi)]; exact e1 i hi⟩)
      rw [hal]
      right
      refine ⟨_, _, rfl, rfl, rfl, ?_, ?_⟩
      · intro i hi
        simp only at hi
        refine ⟨(hai i hi).1, (hai i hi).2, ?_⟩
        have e1 := e1 i (List.mem_range.mpr hi)
        have e2 := (calcAlpha_ok F _ _ _ List.nodup_range _ _ hal).1 i (List.mem_range.mpr hi)
        rw [halpha T i hi, e2] at e1
        injection e1 with e1
        exact e1.symm
      · intro a ha b hb
        simp only at ha hb
        exact hkij a ha b hb

/-- Temperature-dependent factor of the first component after building an object, a history, and an
evaluation at `T`. -/
def alphaAfter (lib : ℕ → Dict V) (ops : List (Op V)) (T : V) : Except PyErr V :=
  match build F 1 lib ⟨[]⟩ with
  | .error e => .error e
  | .ok s0 =>
    match run F s0 ops with
    | .error e => .error e
    | .ok s1 =>
      match ensureT F s1 T with
      | .error e => .error e
      | .ok s2 => .ok (s2.alpha 0)

/-- **C13, violated.** After an update of the acentric factor and a refresh, the object still uses
the κ of the old acentric factor, whereas a new object uses the κ of the new one. -/
theorem c13_violated_omega (w0 w1 Tc Pc T : V) :
    alphaAfter F (fun _ => ⟨[("omega", w0), ("Tc", Tc), ("Pc", Pc)]⟩)
      [.self 0 "omega" w1, .refresh] T = .ok (F.alpha (F.kappa w0) T Tc) ∧
    alphaAfter F (userLib (fun _ => ⟨[("omega", w0), ("Tc", Tc), ("Pc", Pc)]⟩)
      [.self 0 "omega" w1, .refresh]) [] T = .ok (F.alpha (F.kappa w1) T Tc) := by
  constructor
  · simp [alphaAfter, build, refresh, refreshGroups, refreshGroup, refreshAB, refreshKappa, run, step,
      updateSelf, ensureT, calcAlpha, groupAlpha, PyDict.get?, PyDict.set, PyDict.setL, PyDict.lookupL,
      PyDict.contains, List.range_succ]
  · simp [alphaAfter, build, refresh, refreshGroups, refreshGroup, refreshAB, refreshKappa, run,
      userLib, ensureT, calcAlpha, groupAlpha, PyDict.get?, PyDict.set, PyDict.setL, PyDict.lookupL,
      PyDict.contains, List.range_succ]

/-- With the coefficients of the code the two differ, for instance at four times the critical
temperature for acentric factors 0 and 1. -/
theorem c13_violated_values (R : ℝ) :
    (realFormulas R).alpha ((realFormulas R).kappa 0) 4 1 ≠
      (realFormulas R).alpha ((realFormulas R).kappa 1) 4 1 := by
  have h : √(4 : ℝ) = 2 := by
    rw [show (4 : ℝ) = 2 ^ 2 by norm_num]; exact Real.sqrt_sq (by norm_num)
  simp only [realFormulas, div_one, h]
  norm_num

/-- **C13, violated.** A group with `ai`, `bi` and `omega` but without `Tc` is accepted, and every
evaluation then fails with a `KeyError`. -/
theorem c13_violated_missing_tc (w a b T : V) :
    (∃ s, build F 1 (fun _ => ⟨[("omega", w), ("ai", a), ("bi", b)]⟩) ⟨[]⟩ = .ok s) ∧
    alphaAfter F (fun _ => ⟨[("omega", w), ("ai", a), ("bi", b)]⟩) [] T = .error .keyError := by
  constructor
  · simp [build, refresh, refreshGroups, refreshGroup, refreshAB, refreshKappa,
      PyDict.get?, PyDict.set, PyDict.setL, PyDict.lookupL, PyDict.contains, List.range_succ]
  · simp [alphaAfter, build, refresh, refreshGroups, refreshGroup, refreshAB, refreshKappa, run,
      ensureT, calcAlpha, groupAlpha, PyDict.get?, PyDict.set, PyDict.setL, PyDict.lookupL,
      PyDict.contains, List.range_succ]

/-- The hypotheses of `c13_fresh_partial` are met by a history with an update that changes results. -/
example (w Tc Tc' Pc T : V) :
    (∀ o ∈ [Op.eval T, Op.self 0 "Tc" Tc'],
      Allowed (fun _ => (⟨[("omega", w), ("Tc", Tc), ("Pc", Pc)]⟩ : Dict V)) o) ∧
    alphaAfter F (fun _ => ⟨[("omega", w), ("Tc", Tc), ("Pc", Pc)]⟩)
      ([.eval T, .self 0 "Tc" Tc'] ++ [.refresh]) T = .ok (F.alpha (F.kappa w) T Tc') := by
  constructor
  · intro o ho
    simp only [List.mem_cons, List.not_mem_nil, or_false] at ho
    rcases ho with rfl | rfl
    · trivial
    · exact ⟨by decide, fun h => absurd h (by decide)⟩
  · simp [alphaAfter, build, refresh, refreshGroups, refreshGroup, refreshAB, refreshKappa, run, step,
      updateSelf, ensureT, calcAlpha, groupAlpha, PyDict.get?, PyDict.set, PyDict.setL, PyDict.lookupL,
      PyDict.contains, List.range_succ]

/-- **C13** (refusals): a parameter of the second kind, alone or of a pair, is refused exactly for a first group that was
given critical properties; nothing else is refused, whatever the parameter is called. -/
theorem c13_refused (s : State V) (p : String) (v : V) (i j : ℕ) (e : PyErr) :
    (step F s (.self i p v) = .error e ↔ e = .valueError ∧ (p = "ai" ∨ p = "bi") ∧ s.testCritical i = true) ∧
    (step F s (.cross i j p v) = .error e ↔ e = .valueError ∧ (p = "ai" ∨ p = "bi") ∧ s.testCritical i = true) := by
  constructor
  · show updateSelf s i p v = _ ↔ _
    unfold updateSelf
    split_ifs with h
    · constructor
      · intro h'; exact ⟨by injection h' with h'; exact h'.symm, h⟩
      · rintro ⟨rfl, -⟩; rfl
    · constructor
      · intro h'; cases h'
      · rintro ⟨-, h'⟩; exact absurd h' h
  · show updateCross s i j p v = _ ↔ _
    unfold updateCross
    split_ifs with h
    · constructor
      · intro h'; exact ⟨by injection h' with h'; exact h'.symm, h⟩
      · rintro ⟨rfl, -⟩; rfl
    · constructor
      · intro h'; cases h'
      · rintro ⟨-, h'⟩; exact absurd h' h

end Verif.Props
