import Verif.Model.Parallel
import Mathlib.Data.List.Basic
import Mathlib.Tactic.Set

/-! # Lemmas on chunked execution -/

namespace Verif.Parallel
open Verif

variable {α β ν : Type}

theorem runChunk_ok (f : α → Except PyErr β) (l : List α) (r : List β) :
    runChunk f l = .ok r ↔ l.map f = r.map .ok := by
  induction l generalizing r with
  | nil => cases r <;> simp [runChunk]
  | cons x l ih =>
    unfold runChunk
    cases hx : f x with
    | error e => cases r <;> simp [hx]
    | ok b =>
      cases hl : runChunk f l with
      | error e =>
        cases r with
        | nil => simp
        | cons b' r =>
          simp only [List.map_cons, List.cons.injEq, hx, reduceCtorEq, false_iff, not_and]
          intro _ h
          rw [(ih r).mpr h] at hl; cases hl
      | ok bs =>
        cases r with
        | nil => simp
        | cons b' r =>
          simp only [Except.ok.injEq, List.cons.injEq, List.map_cons, hx]
          constructor
          · rintro ⟨rfl, rfl⟩; exact ⟨rfl, (ih _).mp hl⟩
          · rintro ⟨rfl, h⟩
            refine ⟨rfl, ?_⟩
            have := (ih r).mpr h
            rw [hl] at this; cases this; rfl

theorem runChunk_error (f : α → Except PyErr β) (l : List α) (e : PyErr)
    (h : runChunk f l = .error e) : ∃ x ∈ l, f x = .error e := by
  induction l with
  | nil => cases h
  | cons x l ih =>
    unfold runChunk at h
    cases hx : f x with
    | error e' => rw [hx] at h; cases h; exact ⟨x, by simp, hx⟩
    | ok b =>
      rw [hx] at h
      cases hl : runChunk f l with
      | error e' =>
        rw [hl] at h; cases h
        obtain ⟨y, hy, hfy⟩ := ih hl
        exact ⟨y, List.mem_cons_of_mem _ hy, hfy⟩
      | ok bs => rw [hl] at h; cases h

theorem runChunk_of_bad (f : α → Except PyErr β) (l : List α) (x : α) (hx : x ∈ l) (e : PyErr)
    (h : f x = .error e) : ∃ e', runChunk f l = .error e' := by
  cases hr : runChunk f l with
  | error e' => exact ⟨e', rfl⟩
  | ok r =>
    have := (runChunk_ok f l r).mp hr
    have hm : f x ∈ r.map Except.ok := this ▸ List.mem_map_of_mem hx
    rw [h] at hm
    simp at hm

theorem splice_length (v : List (Option β)) (s : Nat) (r : List β) (h : s + r.length ≤ v.length) :
    (splice v s r).length = v.length := by
  simp [splice]; omega

theorem splice_get (v : List (Option β)) (s : Nat) (r : List β) (h : s + r.length ≤ v.length)
    (j : Nat) : (splice v s r)[j]? =
      if s ≤ j ∧ j < s + r.length then (r[j - s]?).map some else v[j]? := by
  unfold splice
  have hs : (v.take s).length = s := by simp; omega
  rw [List.append_assoc]
  by_cases h1 : j < s
  · rw [List.getElem?_append_left (by omega)]
    rw [if_neg (by omega), List.getElem?_take_of_lt h1]
  · rw [List.getElem?_append_right (by omega), hs]
    by_cases h2 : j < s + r.length
    · rw [List.getElem?_append_left (by simp; omega), if_pos (by omega)]
      simp
    · rw [List.getElem?_append_right (by simp; omega), if_neg (by omega)]
      simp only [List.length_map, List.getElem?_drop]
      congr 1; omega

/-- State of the slots after the chunks in `σ` have arrived. -/
theorem fold_arrive_ok (f : α → Except PyErr β) (c : Nat) (hc : 0 < c) (inputs : List α)
    (res : List β) (hres : inputs.map f = res.map .ok) (σ : List Nat)
    (hσ : ∀ i ∈ σ, i < numChunks c inputs) (v : List (Option β)) (hv : v.length = inputs.length) :
    ∃ w, σ.foldl (arrive f c inputs) (.ok v) = .ok w ∧ w.length = inputs.length ∧
      ∀ j, w[j]? = if j / c ∈ σ then (res[j]?).map some else v[j]? := by
  have hlen : res.length = inputs.length := by
    have := congrArg List.length hres; simpa using this.symm
  induction σ generalizing v with
  | nil => exact ⟨v, rfl, hv, by simp⟩
  | cons i σ ih =>
    have hi := hσ i (by simp)
    have hi' : i * c < inputs.length := by
      unfold numChunks at hi
      have := Nat.lt_of_lt_of_le hi (Nat.le_refl _)
      rw [Nat.lt_div_iff_mul_lt hc] at this
      omega
    have hrun : runChunk f (chunkAt c inputs i) = .ok ((res.drop (i * c)).take c) := by
      rw [runChunk_ok]
      unfold chunkAt
      rw [List.map_take, List.map_drop, hres, List.map_take, List.map_drop]
    have hb : i * c + ((res.drop (i * c)).take c).length ≤ v.length := by
      simp; omega
    obtain ⟨w, hw, hwl, hwg⟩ := ih (fun j hj => hσ j (List.mem_cons_of_mem _ hj))
      (splice v (i * c) ((res.drop (i * c)).take c)) (by rw [splice_length _ _ _ hb]; exact hv)
    refine ⟨w, ?_, hwl, ?_⟩
    · rw [List.foldl_cons]
      rw [show arrive f c inputs (.ok v) i
          = .ok (splice v (i * c) ((res.drop (i * c)).take c)) by simp [arrive, hrun]]
      exact hw
    · intro j
      rw [hwg j]
      by_cases hj : j / c ∈ σ
      · simp [hj]
      · simp only [hj, if_false, List.mem_cons, or_false]
        rw [splice_get _ _ _ hb]
        have hdiv : j / c = i ↔ i * c ≤ j ∧ j < i * c + c := by
          rw [Nat.div_eq_iff hc]
          constructor
          · rintro ⟨h1, h2⟩; exact ⟨h1, by omega⟩
          · rintro ⟨h1, h2⟩; exact ⟨h1, by omega⟩
        by_cases hji : j / c = i
        · rw [if_pos hji]
          obtain ⟨h1, h2⟩ := hdiv.mp hji
          by_cases hjl : j < res.length
          · rw [if_pos ⟨h1, by simp; omega⟩]
            rw [List.getElem?_take_of_lt (by omega), List.getElem?_drop]
            congr 2; omega
          · rw [if_neg (by simp; omega)]
            rw [List.getElem?_eq_none (by omega), List.getElem?_eq_none (by omega)]; rfl
        · rw [if_neg hji, if_neg]
          rintro ⟨h1, h2⟩
          apply hji; apply hdiv.mpr
          simp at h2
          omega

theorem fold_arrive_error (f : α → Except PyErr β) (c : Nat) (inputs : List α) (σ : List Nat)
    (e : PyErr) : σ.foldl (arrive f c inputs) (.error e) = .error e := by
  induction σ with
  | nil => rfl
  | cons i σ ih => simpa [arrive] using ih

theorem fold_arrive_bad (f : α → Except PyErr β) (c : Nat) (inputs : List α) (σ : List Nat)
    (st : Except PyErr (List (Option β))) (i : Nat) (hi : i ∈ σ) (e : PyErr)
    (hbad : runChunk f (chunkAt c inputs i) = .error e) :
    ∃ e', σ.foldl (arrive f c inputs) st = .error e' := by
  induction σ generalizing st with
  | nil => cases hi
  | cons j σ ih =>
    rw [List.foldl_cons]
    rcases List.mem_cons.mp hi with rfl | hi
    · cases st with
      | error e' => exact ⟨e', fold_arrive_error ..⟩
      | ok v => exact ⟨e, by simp only [arrive, hbad]; exact fold_arrive_error ..⟩
    · exact ih _ hi

theorem fold_arrive_error_from (f : α → Except PyErr β) (c : Nat) (inputs : List α) (σ : List Nat)
    (v : List (Option β)) (e : PyErr) (h : σ.foldl (arrive f c inputs) (.ok v) = .error e) :
    ∃ i ∈ σ, runChunk f (chunkAt c inputs i) = .error e := by
  induction σ generalizing v with
  | nil => cases h
  | cons j σ ih =>
    rw [List.foldl_cons] at h
    cases hr : runChunk f (chunkAt c inputs j) with
    | error e' =>
      have : arrive f c inputs (.ok v) j = .error e' := by simp [arrive, hr]
      rw [this, fold_arrive_error] at h
      cases h
      exact ⟨j, by simp, hr⟩
    | ok r =>
      have : arrive f c inputs (.ok v) j = .ok (splice v (j * c) r) := by simp [arrive, hr]
      rw [this] at h
      obtain ⟨i, hi, hb⟩ := ih _ h
      exact ⟨i, List.mem_cons_of_mem _ hi, hb⟩

/-- A job in the batch is in one of the chunks. -/
theorem mem_chunk (c : Nat) (hc : 0 < c) (inputs : List α) (x : α) (hx : x ∈ inputs) :
    ∃ i < numChunks c inputs, x ∈ chunkAt c inputs i := by
  obtain ⟨j, hj, rfl⟩ := List.getElem_of_mem hx
  refine ⟨j / c, ?_, ?_⟩
  · unfold numChunks
    rw [Nat.lt_div_iff_mul_lt hc]
    have := Nat.div_mul_le_self j c
    omega
  · unfold chunkAt
    rw [List.mem_iff_getElem?]
    refine ⟨j % c, ?_⟩
    rw [List.getElem?_take_of_lt (Nat.mod_lt _ hc), List.getElem?_drop]
    rw [show j / c * c + j % c = j from Nat.div_add_mod' j c]
    exact List.getElem?_eq_getElem hj

theorem chunk_sub (c : Nat) (inputs : List α) (i : Nat) (x : α) (hx : x ∈ chunkAt c inputs i) :
    x ∈ inputs := List.mem_of_mem_drop (List.mem_of_mem_take hx)

end Verif.Parallel
