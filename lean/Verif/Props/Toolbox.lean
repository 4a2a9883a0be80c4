import Verif.Proofs.Toolbox

/-!
# C01 and C02: common length of inputs, defaults
-/

namespace Verif.Props
open Verif Verif.Toolbox Verif.Spec

variable {κ α : Type} [DecidableEq κ]

/-- **C01, success.**  When the inputs are accepted there is a number of points `n` such that the
output holds, for exactly the requested keys the user supplied, the user's rows over those `n`
points, and nothing else. -/
theorem c01_accepted (d : PyDict κ (Arg α)) (keys : List κ) (lx : Option Nat)
    (out : PyDict κ (List α)) (h : checkLengthDict d keys lx = .ok out) :
    ∃ n, IsPointCount d.get? keys lx n ∧
      (∀ k l, out.get? k = some l ↔ k ∈ keys ∧ ∃ a, d.get? k = some a ∧ Broadcast n a l) ∧
      (∀ k ∈ keys, ∀ a, d.get? k = some a → ∃ l, out.get? k = some l ∧ l.length = n) := by
  unfold checkLengthDict at h
  split at h
  · cases h
  · rename_i n hn
    have key := fillLoop_ok d n keys PyDict.empty out h
    refine ⟨n, (targetLength_ok_iff d keys lx n).mp hn, ?_, ?_⟩
    · intro k l
      obtain ⟨h1, h2⟩ := key k
      rw [h1]
      by_cases hk : k ∈ keys
      · simp only [hk, if_true, true_and]
        cases hg : d.get? k with
        | none => simp
        | some a =>
          obtain ⟨l', hl'⟩ := h2 hk a hg
          simp only [hl', Option.some.injEq]
          constructor
          · rintro rfl; exact ⟨a, rfl, (expand_ok_iff n a _).mp hl'⟩
          · rintro ⟨a', rfl, hb⟩
            have := (expand_ok_iff n _ _).mpr hb
            rw [hl'] at this; cases this; rfl
      · simp [hk]
    · intro k hk a ha
      obtain ⟨h1, h2⟩ := key k
      obtain ⟨l, hl⟩ := h2 hk a ha
      refine ⟨l, ?_, ?_⟩
      · rw [h1]; simp [hk, ha, hl]
      · cases (expand_ok_iff n a l).mp hl with
        | scalar a => simp
        | single a => simp
        | full l h => exact h

/-- **C01, rejection.**  The only failure is `ValueError`, and it happens exactly when nothing was
given and no length was requested, or some given input has neither one row nor one row per point. -/
theorem c01_rejected (d : PyDict κ (Arg α)) (keys : List κ) (lx : Option Nat) (e : PyErr) :
    checkLengthDict d keys lx = .error e ↔
      e = .valueError ∧
        ((lx = none ∧ ∀ k ∈ keys, d.get? k = none) ∨
         (∃ n, IsPointCount d.get? keys lx n ∧ ∃ k ∈ keys, ∃ a, d.get? k = some a ∧ ¬ Fits n a)) := by
  unfold checkLengthDict
  split
  · rename_i e' he'
    obtain ⟨h1, h2, h3⟩ := (targetLength_error_iff d keys lx e').mp he'
    subst h1
    constructor
    · intro h; cases h; exact ⟨rfl, .inl ⟨h2, h3⟩⟩
    · rintro ⟨h, _⟩; rw [h]
  · rename_i n hn
    have hp := (targetLength_ok_iff d keys lx n).mp hn
    rw [fillLoop_error_iff]
    constructor
    · rintro ⟨h1, h2⟩; exact ⟨h1, .inr ⟨n, hp, h2⟩⟩
    · rintro ⟨h1, h2⟩
      refine ⟨h1, ?_⟩
      rcases h2 with ⟨h2, h3⟩ | ⟨m, hm, h3⟩
      · have := (targetLength_error_iff d keys lx .valueError).mpr ⟨rfl, h2, h3⟩
        rw [hn] at this; cases this
      · have := (targetLength_ok_iff d keys lx m).mpr hm
        rw [hn] at this; cases this; exact h3

omit [DecidableEq κ] in
/-- The number of points is determined by the inputs. -/
theorem c01_pointCount_unique (given : κ → Option (Arg α)) (keys : List κ) (lx : Option Nat)
    (n m : Nat) (hn : IsPointCount given keys lx n) (hm : IsPointCount given keys lx m) : n = m := by
  cases lx with
  | some k => simp only [IsPointCount] at hn hm; omega
  | none =>
    obtain ⟨⟨k, hk, a, ha, h1⟩, h2⟩ := hn
    obtain ⟨⟨k', hk', a', ha', h1'⟩, h2'⟩ := hm
    have := h2 k' hk' a' ha'
    have := h2' k hk a ha
    omega

/-- Non-vacuity: three temperatures and one pressure are accepted and the pressure is repeated. -/
example : checkLengthDict (κ := String) (α := Nat)
    ⟨[("Tlist", .arr [300, 310, 320]), ("Plist", .scalar 5), ("other", .arr [1, 2])]⟩
    ["Tlist", "Plist"] none
    = .ok ⟨[("Tlist", [300, 310, 320]), ("Plist", [5, 5, 5])]⟩ := by decide

/-- Non-vacuity: two temperatures with three pressures are rejected. -/
example : checkLengthDict (κ := String) (α := Nat)
    ⟨[("Tlist", .arr [300, 310]), ("Plist", .arr [1, 2, 3])]⟩ ["Tlist", "Plist"] none
    = .error .valueError := by decide

/-- **C02, user values win.**  Filling defaults never changes an entry the user supplied. -/
theorem c02_user_value_kept (d out : PyDict κ (Arg α)) (keys : KeyArg κ) (values : ValArg α)
    (lx : Option Nat) (h : setDefaults d keys values lx = .ok out) (k : κ) (v : Arg α)
    (hk : d.get? k = some v) : out.get? k = some v := by
  unfold setDefaults at h
  split at h
  · cases h
  · cases h
    rw [defaultsLoop_get]
    have : d.contains k = true := by simp [PyDict.contains, hk]
    simp [this, hk]

/-- **C02, exactly the requested keys are added** (list of keys with one default each, keys
distinct): a missing requested key gets its default, repeated over the points when it is a scalar
and a length is requested; a key that was not requested stays absent. -/
theorem c02_missing_filled (d out : PyDict κ (Arg α)) (ks : List κ) (vs : List (Arg α))
    (lx : Option Nat) (hnd : ks.Nodup)
    (h : setDefaults d (.many ks) (.many vs) lx = .ok out) :
    ks.length = vs.length ∧
    (∀ i (hi : i < ks.length) (hv : i < vs.length), d.get? ks[i] = none →
      out.get? ks[i] = some (defaultOver lx vs[i])) ∧
    (∀ k, k ∉ ks → out.get? k = d.get? k) := by
  unfold setDefaults pairDefaults at h
  by_cases hlen : ks.length = vs.length
  · simp only [hlen, ne_eq, not_true, if_false, Except.ok.injEq] at h
    subst h
    have main : ∀ (ks : List κ) (vs : List (Arg α)), ks.Nodup → ks.length = vs.length →
        (∀ i (hi : i < ks.length) (hv : i < vs.length), lastFor (ks.zip vs) ks[i] = some vs[i]) ∧
        (∀ k, k ∉ ks → lastFor (ks.zip vs) k = none) := by
      intro ks
      induction ks with
      | nil => intro vs _ _; simp [lastFor]
      | cons a ks ih =>
        intro vs hnd hl
        cases vs with
        | nil => simp at hl
        | cons b vs =>
          simp only [List.nodup_cons] at hnd
          obtain ⟨i1, i2⟩ := ih vs hnd.2 (by simpa using hl)
          constructor
          · intro i hi hv
            cases i with
            | zero => simp [lastFor, i2 a hnd.1]
            | succ i =>
              have := i1 i (by simpa using hi) (by simpa using hv)
              simp [lastFor, this]
          · intro k hk
            simp only [List.mem_cons, not_or] at hk
            have h3 : ¬ a = k := fun e => hk.1 e.symm
            simp [lastFor, i2 k hk.2, h3]
    obtain ⟨m1, m2⟩ := main ks vs hnd hlen
    refine ⟨hlen, ?_, ?_⟩
    · intro i hi hv hd
      rw [defaultsLoop_get]
      have : d.contains ks[i] = false := by simp [PyDict.contains, hd]
      simp only [this, Bool.false_eq_true, if_false, m1 i hi hv]
      cases lx <;> cases vs[i] <;> rfl
    · intro k hk
      rw [defaultsLoop_get, m2 k hk]
      simp
  · simp [hlen] at h

/-- **C02, one default for all keys.** -/
theorem c02_missing_filled_scalar (d out : PyDict κ (Arg α)) (ks : List κ) (v : α)
    (lx : Option Nat) (h : setDefaults d (.many ks) (.one v) lx = .ok out) (k : κ) :
    (k ∈ ks → d.get? k = none → out.get? k = some (match lx with
        | some n => .arr (List.replicate n v)
        | none => .scalar v)) ∧
    (k ∉ ks → out.get? k = d.get? k) := by
  simp only [setDefaults, pairDefaults, Except.ok.injEq] at h
  subst h
  have main : ∀ ks : List κ, (k ∈ ks → lastFor (ks.map (fun k => (k, Arg.scalar v))) k = some (.scalar v)) ∧
      (k ∉ ks → lastFor (ks.map (fun k => (k, Arg.scalar v))) k = none) := by
    intro ks
    induction ks with
    | nil => simp [lastFor]
    | cons a ks ih =>
      by_cases h1 : k ∈ ks
      · simp [h1, lastFor, ih.1 h1]
      · by_cases h2 : k = a
        · subst h2; simp [lastFor, ih.2 h1]
        · have h3 : ¬ a = k := fun e => h2 e.symm
          simp [h1, h2, h3, lastFor, ih.2 h1]
  constructor
  · intro hk hd
    rw [defaultsLoop_get, (main ks).1 hk]
    have : d.contains k = false := by simp [PyDict.contains, hd]
    simp only [this, Bool.false_eq_true, if_false]
    cases lx <;> rfl
  · intro hk
    rw [defaultsLoop_get, (main ks).2 hk]; simp

/-- **C02, a single key.** One key with one default, written as such or as a list with one entry. -/
theorem c02_missing_filled_key (d out : PyDict κ (Arg α)) (k : κ) (values : ValArg α) (lx : Option Nat)
    (h : setDefaults d (.one k) values lx = .ok out) :
    (∃ v, (values = .many [v] ∨ ∃ a, v = .scalar a ∧ values = .one a) ∧
      (d.get? k = none → out.get? k = some (defaultOver lx v))) ∧
    ∀ k', k' ≠ k → out.get? k' = d.get? k' := by
  have main : ∀ v : Arg α, setDefaults d (.one k) values lx = .ok (defaultsLoop d lx [(k, v)] d) →
      (d.get? k = none → out.get? k = some (defaultOver lx v)) ∧ ∀ k', k' ≠ k → out.get? k' = d.get? k' := by
    intro v hv
    rw [hv, Except.ok.injEq] at h
    subst h
    constructor
    · intro hd
      rw [defaultsLoop_get]
      have : d.contains k = false := by simp [PyDict.contains, hd]
      simp only [this, Bool.false_eq_true, if_false, lastFor, if_true]
      cases lx <;> cases v <;> rfl
    · intro k' hk
      have h3 : ¬ k = k' := fun e => hk e.symm
      rw [defaultsLoop_get]
      simp [lastFor, h3]
  cases values with
  | one a =>
    obtain ⟨h1, h2⟩ := main (.scalar a) rfl
    exact ⟨⟨.scalar a, .inr ⟨a, rfl, rfl⟩, h1⟩, h2⟩
  | many vs =>
    match vs with
    | [v] =>
      obtain ⟨h1, h2⟩ := main v rfl
      exact ⟨⟨v, .inl rfl, h1⟩, h2⟩
    | [] => cases h
    | _ :: _ :: _ => cases h

/-- **C02, rejection**: the call fails, with `ValueError`, exactly when the numbers of keys and
defaults do not match. -/
theorem c02_rejected (d : PyDict κ (Arg α)) (keys : KeyArg κ) (values : ValArg α)
    (lx : Option Nat) (e : PyErr) :
    setDefaults d keys values lx = .error e ↔ e = .valueError ∧
      match keys, values with
      | .many ks, .many vs => ks.length ≠ vs.length
      | .one _, .many vs => vs.length ≠ 1
      | _, .one _ => False := by
  unfold setDefaults pairDefaults
  cases keys with
  | many ks =>
    cases values with
    | one v => simp
    | many vs =>
      by_cases h : ks.length = vs.length <;> simp [h, eq_comm]
  | one k =>
    cases values with
    | one v => simp
    | many vs =>
      match vs with
      | [] => simp [eq_comm]
      | [v] => simp
      | _ :: _ :: _ => simp [eq_comm]

example : setDefaults (κ := String) (α := Nat) ⟨[("Tlist", .arr [300, 310])]⟩
    (.many ["Tlist", "Plist"]) (.many [.scalar 298, .scalar 101325]) (some 2)
    = .ok ⟨[("Tlist", .arr [300, 310]), ("Plist", .arr [101325, 101325])]⟩ := by decide

/-- **C01, C02** (what counts as an array): a default is kept as it is exactly if it is iterable, and a value that is not iterable becomes as
many copies as there are points. -/
theorem c02_iterable (v : Arg α) (n : Nat) : (v.isiterable = true ↔ defaultFor (some n) v = v) ∧
    (v.isiterable = false ↔ ∃ a, v = .scalar a ∧ expand n v = .ok (List.replicate n a)) := by
  cases v with
  | scalar a => simp [Arg.isiterable, defaultFor, expand, List.map_const']
  | arr l => simp [Arg.isiterable, defaultFor]

end Verif.Props
