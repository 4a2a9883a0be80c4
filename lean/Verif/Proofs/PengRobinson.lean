import Verif.Model.PengRobinson
import Verif.Props.Interface
import Mathlib.Data.List.Nodup

/-! # Lemmas on the Peng-Robinson object -/

namespace Verif.PengRobinson
open Verif Verif.Interface

variable {V : Type} (F : Formulas V)

/-- The κ in force for a user dictionary. -/
def kapE (d : Dict V) : Option V := (d.get? "kappa").or ((d.get? "omega").map F.kappa)

/-- The a in force. -/
def aE (cp : Bool) (d : Dict V) : Option V :=
  if cp then (d.get? "Tc").bind fun Tc => (d.get? "Pc").map fun Pc => F.ai Tc Pc
  else d.get? "ai"

/-- The b in force. -/
def bE (cp : Bool) (d : Dict V) : Option V :=
  if cp then (d.get? "Tc").bind fun Tc => (d.get? "Pc").map fun Pc => F.bi Tc Pc
  else d.get? "bi"

theorem refreshKappa_get (d : Dict V) (q : String) :
    (refreshKappa F d).get? q = if q = "kappa" then kapE F d else d.get? q := by
  unfold refreshKappa kapE
  cases h1 : d.get? "omega" with
  | none =>
    by_cases hq : q = "kappa"
    · subst hq; simp
    · simp [hq]
  | some w =>
    cases h2 : d.get? "kappa" with
    | none =>
      by_cases hq : q = "kappa"
      · subst hq; simp
      · simp only [hq, if_false]; exact PyDict.get?_set_ne _ _ (fun e => hq e.symm)
    | some k =>
      by_cases hq : q = "kappa"
      · subst hq; simp [h2]
      · simp [hq]

theorem refreshGroup_ok (crit par : Bool) (d d' : Dict V) (a b : V)
    (h : refreshGroup F crit par d = .ok (d', a, b)) :
    aE F (crit && !par) d = some a ∧ bE F (crit && !par) d = some b ∧
      d'.get? "kappa" = kapE F d ∧
      (∀ q, q ≠ "kappa" → q ≠ "ai" → q ≠ "bi" → d'.get? q = d.get? q) ∧
      ((crit && !par) = false → d'.get? "ai" = d.get? "ai" ∧ d'.get? "bi" = d.get? "bi") := by
  unfold refreshGroup refreshAB at h
  by_cases hc : (crit && !par) = true
  · rw [if_pos hc] at h
    simp only [refreshKappa_get, show ("Tc" : String) ≠ "kappa" by decide,
      show ("Pc" : String) ≠ "kappa" by decide, if_false] at h
    cases hT : d.get? "Tc" with
    | none => rw [hT] at h; simp at h
    | some Tc =>
      cases hP : d.get? "Pc" with
      | none => rw [hT, hP] at h; simp at h
      | some Pc =>
        rw [hT, hP] at h
        simp only [PyDict.get?_set_self, PyDict.get?_set, show ¬ ("bi" : String) = "ai" by decide,
          if_false] at h
        injection h with h
        simp only [Prod.mk.injEq] at h
        obtain ⟨rfl, rfl, rfl⟩ := h
        refine ⟨by simp [aE, hc, hT, hP], by simp [bE, hc, hT, hP], ?_, ?_, ?_⟩
        · rw [PyDict.get?_set_ne _ _ (by decide), PyDict.get?_set_ne _ _ (by decide),
            refreshKappa_get, if_pos rfl]
        · intro q h1 h2 h3
          rw [PyDict.get?_set_ne _ _ (fun e => h3 e.symm),
            PyDict.get?_set_ne _ _ (fun e => h2 e.symm), refreshKappa_get, if_neg h1]
        · intro h; rw [hc] at h; cases h
  · have hc' : (crit && !par) = false := by simpa using hc
    rw [if_neg hc] at h
    simp only [refreshKappa_get, show ("ai" : String) ≠ "kappa" by decide,
      show ("bi" : String) ≠ "kappa" by decide, if_false] at h
    cases hA : d.get? "ai" with
    | none => rw [hA] at h; simp at h
    | some a' =>
      cases hB : d.get? "bi" with
      | none => rw [hA, hB] at h; simp at h
      | some b' =>
        rw [hA, hB] at h
        injection h with h
        simp only [Prod.mk.injEq] at h
        obtain ⟨rfl, rfl, rfl⟩ := h
        refine ⟨by simp [aE, hc', hA], by simp [bE, hc', hB], ?_, ?_, ?_⟩
        · rw [refreshKappa_get, if_pos rfl]
        · intro q h1 h2 h3
          rw [refreshKappa_get, if_neg h1]
        · intro _
          rw [refreshKappa_get, refreshKappa_get, if_neg (by decide), if_neg (by decide), hA, hB]
          exact ⟨rfl, rfl⟩

theorem refreshGroup_exists (crit par : Bool) (d : Dict V) (a b : V)
    (ha : aE F (crit && !par) d = some a) (hb : bE F (crit && !par) d = some b) :
    ∃ d', refreshGroup F crit par d = .ok (d', a, b) := by
  unfold refreshGroup refreshAB
  by_cases hc : (crit && !par) = true
  · rw [if_pos hc]
    simp only [refreshKappa_get, show ("Tc" : String) ≠ "kappa" by decide,
      show ("Pc" : String) ≠ "kappa" by decide, if_false]
    cases hT : d.get? "Tc" with
    | none => simp [aE, hc, hT] at ha
    | some Tc =>
      cases hP : d.get? "Pc" with
      | none => simp [aE, hc, hT, hP] at ha
      | some Pc =>
        simp only [aE, bE, hc, hT, hP, if_true, Option.bind_some, Option.map_some,
          Option.some.injEq] at ha hb
        subst ha; subst hb
        refine ⟨((refreshKappa F d).set "ai" (F.ai Tc Pc)).set "bi" (F.bi Tc Pc), ?_⟩
        simp only [PyDict.get?_set_self, PyDict.get?_set, show ¬ ("bi" : String) = "ai" by decide,
          if_false]
  · have hc' : (crit && !par) = false := by simpa using hc
    rw [if_neg hc]
    simp only [refreshKappa_get, show ("ai" : String) ≠ "kappa" by decide,
      show ("bi" : String) ≠ "kappa" by decide, if_false]
    simp only [aE, bE, hc', Bool.false_eq_true, if_false] at ha hb
    rw [ha, hb]
    exact ⟨_, rfl⟩

theorem refreshGroups_ok (r : List ℕ) (hr : r.Nodup) (s s' : State V)
    (h : refreshGroups F r s = .ok s') :
    s'.n = s.n ∧ s'.cross = s.cross ∧ s'.testCritical = s.testCritical ∧
      s'.testParameters = s.testParameters ∧ s'.kij = s.kij ∧ s'.alpha = s.alpha ∧ s'.T = s.T ∧
      (∀ i ∈ r, refreshGroup F (s.testCritical i) (s.testParameters i) (s.lib i) =
        .ok (s'.lib i, s'.ai i, s'.bi i)) ∧
      (∀ i, i ∉ r → s'.lib i = s.lib i) := by
  induction r generalizing s with
  | nil => cases h; simp
  | cons i r ih =>
    unfold refreshGroups at h
    simp only [List.nodup_cons] at hr
    cases hg : refreshGroup F (s.testCritical i) (s.testParameters i) (s.lib i) with
    | error e => rw [hg] at h; cases h
    | ok t =>
      obtain ⟨d, a, b⟩ := t
      rw [hg] at h
      simp only at h
      obtain ⟨h1, h2, h3, h4, h5, h6, h7, h8, h9⟩ := ih hr.2 _ h
      have hl := h9 i hr.1
      simp only [if_true] at hl
      -- entries of `i` are not touched by the rest
      have hai : s'.ai i = a ∧ s'.bi i = b := by
        clear ih h1 h2 h3 h4 h5 h6 h7 h8 h9 hl hg
        have key : ∀ (r : List ℕ) (s0 s1 : State V), i ∉ r → refreshGroups F r s0 = .ok s1 →
            s1.ai i = s0.ai i ∧ s1.bi i = s0.bi i := by
          intro r
          induction r with
          | nil => intro s0 s1 _ h; cases h; exact ⟨rfl, rfl⟩
          | cons j r ih =>
            intro s0 s1 hi h
            simp only [List.mem_cons, not_or] at hi
            unfold refreshGroups at h
            cases hg : refreshGroup F (s0.testCritical j) (s0.testParameters j) (s0.lib j) with
            | error e => rw [hg] at h; cases h
            | ok t =>
              obtain ⟨d, a, b⟩ := t
              rw [hg] at h
              simp only at h
              have := ih _ _ hi.2 h
              simp only [hi.1, if_false] at this
              exact this
        have := key r _ _ hr.1 h
        simpa using this
      refine ⟨h1, h2, h3, h4, h5, h6, h7, ?_, ?_⟩
      · intro k hk
        rcases List.mem_cons.mp hk with rfl | hk
        · rw [hg, hl, hai.1, hai.2]
        · have hne : k ≠ i := fun e => hr.1 (e ▸ hk)
          have := h8 k hk
          simpa only [hne, if_false] using this
      · intro k hk
        simp only [List.mem_cons, not_or] at hk
        have := h9 k hk.2
        simpa only [hk.1, if_false] using this

theorem refreshGroups_exists (r : List ℕ) (hr : r.Nodup) (s : State V)
    (h : ∀ i ∈ r, ∃ t, refreshGroup F (s.testCritical i) (s.testParameters i) (s.lib i) = .ok t) :
    ∃ s', refreshGroups F r s = .ok s' := by
  induction r generalizing s with
  | nil => exact ⟨s, rfl⟩
  | cons i r ih =>
    simp only [List.nodup_cons] at hr
    obtain ⟨⟨d, a, b⟩, ht⟩ := h i (by simp)
    unfold refreshGroups
    rw [ht]
    simp only
    apply ih hr.2
    intro k hk
    have hne : k ≠ i := fun e => hr.1 (e ▸ hk)
    simp only [hne, if_false]
    exact h k (List.mem_cons_of_mem _ hk)

theorem groupAlpha_error (d : Dict V) (T : V) (e : PyErr) (h : groupAlpha F d T = .error e) :
    e = .keyError := by
  unfold groupAlpha at h
  cases h1 : d.get? "kappa" with
  | none => rw [h1] at h; cases h
  | some k =>
    cases h2 : d.get? "Tc" with
    | none => rw [h1, h2] at h; cases h; rfl
    | some Tc => rw [h1, h2] at h; cases h

theorem groupAlpha_congr (d d' : Dict V) (T : V) (h1 : d.get? "kappa" = d'.get? "kappa")
    (h2 : d.get? "Tc" = d'.get? "Tc") : groupAlpha F d T = groupAlpha F d' T := by
  unfold groupAlpha; rw [h1, h2]

/-- Whether α can be computed does not depend on the temperature. -/
theorem groupAlpha_ok_indep (d : Dict V) (T T' : V) (h : ∃ a, groupAlpha F d T = .ok a) :
    ∃ a, groupAlpha F d T' = .ok a := by
  obtain ⟨a, h⟩ := h
  unfold groupAlpha at h ⊢
  cases h1 : d.get? "kappa" with
  | none => exact ⟨_, rfl⟩
  | some k =>
    cases h2 : d.get? "Tc" with
    | none => rw [h1, h2] at h; cases h
    | some Tc => exact ⟨_, rfl⟩

theorem calcAlpha_ok (lib : ℕ → Dict V) (T : V) (r : List ℕ) (hr : r.Nodup) (al al' : ℕ → V)
    (h : calcAlpha F lib T r al = .ok al') :
    (∀ i ∈ r, groupAlpha F (lib i) T = .ok (al' i)) ∧ ∀ i, i ∉ r → al' i = al i := by
  induction r generalizing al with
  | nil => cases h; simp
  | cons i r ih =>
    simp only [List.nodup_cons] at hr
    unfold calcAlpha at h
    cases hg : groupAlpha F (lib i) T with
    | error e => rw [hg] at h; cases h
    | ok a =>
      rw [hg] at h
      obtain ⟨h1, h2⟩ := ih hr.2 _ h
      refine ⟨?_, ?_⟩
      · intro k hk
        rcases List.mem_cons.mp hk with rfl | hk
        · rw [hg, h2 _ hr.1, if_pos rfl]
        · exact h1 k hk
      · intro k hk
        simp only [List.mem_cons, not_or] at hk
        rw [h2 k hk.2, if_neg hk.1]

theorem calcAlpha_exists (lib : ℕ → Dict V) (T : V) (r : List ℕ) (al : ℕ → V)
    (h : ∀ i ∈ r, ∃ a, groupAlpha F (lib i) T = .ok a) : ∃ al', calcAlpha F lib T r al = .ok al' := by
  induction r generalizing al with
  | nil => exact ⟨al, rfl⟩
  | cons i r ih =>
    obtain ⟨a, ha⟩ := h i (by simp)
    unfold calcAlpha
    rw [ha]
    exact ih _ (fun k hk => h k (List.mem_cons_of_mem _ hk))

theorem calcAlpha_error (lib : ℕ → Dict V) (T : V) (r : List ℕ) (al : ℕ → V) (e : PyErr)
    (h : calcAlpha F lib T r al = .error e) :
    e = .keyError ∧ ∃ i ∈ r, ∃ e, groupAlpha F (lib i) T = .error e := by
  induction r generalizing al with
  | nil => cases h
  | cons i r ih =>
    unfold calcAlpha at h
    cases hg : groupAlpha F (lib i) T with
    | error e' =>
      rw [hg] at h
      injection h with h
      subst h
      exact ⟨groupAlpha_error F _ _ _ hg, i, by simp, e', hg⟩
    | ok a =>
      rw [hg] at h
      obtain ⟨h1, k, hk, h2⟩ := ih _ h
      exact ⟨h1, k, List.mem_cons_of_mem _ hk, h2⟩

/-! ### The `kij` double loop -/

theorem mem_kijPairs (n i j : ℕ) : (i, j) ∈ kijPairs n ↔ i < n ∧ j < n := by
  simp [kijPairs]

theorem kijValue_none_symm (cross : PyDict ℕ (PyDict ℕ (PyDict String V))) (i j : ℕ) :
    kijValue cross i j = none ↔ kijValue cross j i = none := by
  unfold kijValue
  cases crossGet? cross i j "kij" <;> cases crossGet? cross j i "kij" <;> simp

/-- The entry after the loop depends on the old entry only if the library has no value. -/
theorem kijFold (cross : PyDict ℕ (PyDict ℕ (PyDict String V))) (l : List (ℕ × ℕ))
    (k k' : ℕ → ℕ → V) (a b : ℕ) :
    (kijValue cross a b = none → (l.foldl (kijStep cross) k) a b = k a b) ∧
      (((a, b) ∈ l ∨ (b, a) ∈ l) → kijValue cross a b ≠ none →
        (l.foldl (kijStep cross) k) a b = (l.foldl (kijStep cross) k') a b) := by
  induction l generalizing k k' with
  | nil => simp
  | cons s r ih =>
    simp only [List.foldl_cons]
    constructor
    · intro h
      rw [(ih (kijStep cross k s) (kijStep cross k' s)).1 h]
      unfold kijStep
      cases hv : kijValue cross s.1 s.2 with
      | none => rfl
      | some v =>
        simp only
        rw [if_neg]
        rintro (⟨rfl, rfl⟩ | ⟨rfl, rfl⟩)
        · rw [h] at hv; cases hv
        · rw [(kijValue_none_symm cross _ _).mp h] at hv; cases hv
    · intro hm hv
      by_cases hr : (a, b) ∈ r ∨ (b, a) ∈ r
      · exact (ih _ _).2 hr hv
      · -- this is the last step that touches the entry
        have hs : s = (a, b) ∨ s = (b, a) := by
          rcases hm with h | h
          · rcases List.mem_cons.mp h with h | h
            · exact Or.inl h.symm
            · exact absurd (Or.inl h) hr
          · rcases List.mem_cons.mp h with h | h
            · exact Or.inr h.symm
            · exact absurd (Or.inr h) hr
        have hkeep : ∀ (l : List (ℕ × ℕ)) (k : ℕ → ℕ → V), ¬ ((a, b) ∈ l ∨ (b, a) ∈ l) →
            (l.foldl (kijStep cross) k) a b = k a b := by
          intro l
          induction l with
          | nil => intro k _; rfl
          | cons t l ih =>
            intro k hn
            simp only [List.mem_cons, not_or] at hn
            simp only [List.foldl_cons]
            rw [ih _ (by simp only [not_or]; exact ⟨hn.1.2, hn.2.2⟩)]
            unfold kijStep
            cases kijValue cross t.1 t.2 with
            | none => rfl
            | some v =>
              simp only
              rw [if_neg]
              rintro (⟨rfl, rfl⟩ | ⟨rfl, rfl⟩)
              · exact hn.1.1 rfl
              · exact hn.2.1 rfl
        rw [hkeep r _ hr, hkeep r _ hr]
        unfold kijStep
        have hv2 : kijValue cross s.1 s.2 ≠ none := by
          rcases hs with rfl | rfl
          · exact hv
          · exact fun h => hv ((kijValue_none_symm cross _ _).mp h)
        cases hw : kijValue cross s.1 s.2 with
        | none => exact absurd hw hv2
        | some v =>
          simp only
          have : (a = s.1 ∧ b = s.2) ∨ (a = s.2 ∧ b = s.1) := by
            rcases hs with rfl | rfl
            · exact Or.inl ⟨rfl, rfl⟩
            · exact Or.inr ⟨rfl, rfl⟩
          rw [if_pos this, if_pos this]

/-- A value in the library is never lost by an update. -/
theorem kijValue_mono (cross : PyDict ℕ (PyDict ℕ (PyDict String V))) (i j : ℕ) (p : String) (v : V)
    (a b : ℕ) (h : kijValue (setCross cross i j p v) a b = none) : kijValue cross a b = none := by
  have key : ∀ a b, crossGet? (setCross cross i j p v) a b "kij" = none →
      crossGet? cross a b "kij" = none := by
    intro a b h
    unfold crossGet? at h ⊢
    rw [Props.c12_setCross_entry] at h
    cases h1 : entry? cross j i with
    | some d =>
      rw [h1] at h
      simp only at h
      by_cases hab : a = j ∧ b = i
      · obtain ⟨rfl, rfl⟩ := hab
        rw [if_pos ⟨rfl, rfl⟩, Option.bind_some, PyDict.get?_set] at h
        rw [h1, Option.bind_some]
        split at h
        · cases h
        · exact h
      · rw [if_neg hab] at h; exact h
    | none =>
      rw [h1] at h
      simp only at h
      by_cases hab : a = i ∧ b = j
      · obtain ⟨rfl, rfl⟩ := hab
        rw [if_pos ⟨rfl, rfl⟩, Option.bind_some, PyDict.get?_set] at h
        split at h
        · cases h
        · cases h2 : entry? cross a b with
          | none => rfl
          | some d => rw [h2] at h; exact h
      · rw [if_neg hab] at h; exact h
  unfold kijValue at h ⊢
  cases h1 : crossGet? (setCross cross i j p v) a b "kij" with
  | some w => rw [h1] at h; simp at h
  | none =>
    rw [h1, Option.none_or] at h
    rw [key _ _ h1, key _ _ h, Option.none_or]

theorem refreshKij_congr (n : ℕ) (cross : PyDict ℕ (PyDict ℕ (PyDict String V))) (k k' : ℕ → ℕ → V)
    (a b : ℕ) (ha : a < n) (hb : b < n) (h : kijValue cross a b = none → k a b = k' a b) :
    refreshKij n cross k a b = refreshKij n cross k' a b := by
  unfold refreshKij
  by_cases hv : kijValue cross a b = none
  · rw [(kijFold cross _ k k' a b).1 hv, (kijFold cross _ k' k a b).1 hv, h hv]
  · exact (kijFold cross _ k k' a b).2 (Or.inl ((mem_kijPairs n a b).mpr ⟨ha, hb⟩)) hv

end Verif.PengRobinson
