import Verif.Model.CalcTypes
import Verif.Proofs.Toolbox
import Verif.Proofs.Parallel
import Verif.Props.Toolbox
import Verif.Props.Parallel

/-! Helper lemmas for the calculation types. -/

namespace Verif.CalcTypes
open Verif Verif.Toolbox Verif.Parallel Verif.Spec

theorem get?_asArgs (d : PyDict Key (List Row)) (k : Key) :
    (asArgs d).get? k = (d.get? k).map .arr := by
  obtain ⟨l⟩ := d
  simp only [asArgs, PyDict.get?]
  induction l with
  | nil => rfl
  | cons p r ih =>
    obtain ⟨a, b⟩ := p
    by_cases h : a = k
    · simp [PyDict.lookupL, h]
    · simp [PyDict.lookupL, h, ih]

theorem asArgs_WF (d : PyDict Key (List Row)) (h : d.WF) : (asArgs d).WF := by
  simpa [PyDict.WF, PyDict.keys, asArgs, Function.comp_def] using h

theorem contains_asArgs (d : PyDict Key (List Row)) (k : Key) :
    (asArgs d).contains k = d.contains k := by
  simp [PyDict.contains, get?_asArgs]

theorem fillLoop_WF {κ α : Type} [DecidableEq κ] (d : PyDict κ (Arg α)) (n : Nat) (keys : List κ)
    (acc out : PyDict κ (List α)) (hw : acc.WF) (h : fillLoop d n keys acc = .ok out) : out.WF := by
  induction keys generalizing acc with
  | nil => simp only [fillLoop, Except.ok.injEq] at h; exact h ▸ hw
  | cons k ks ih =>
    unfold fillLoop at h
    split at h
    · exact ih acc hw h
    · split at h
      · cases h
      · exact ih _ (PyDict.WF_set _ _ _ hw) h

theorem checkLengthDict_WF {κ α : Type} [DecidableEq κ] (d : PyDict κ (Arg α)) (keys : List κ)
    (lx : Option Nat) (out : PyDict κ (List α)) (h : checkLengthDict d keys lx = .ok out) :
    out.WF := by
  unfold checkLengthDict at h
  split at h
  · cases h
  · exact fillLoop_WF _ _ _ _ _ PyDict.WF_empty h

theorem defaultsLoop_WF {κ α : Type} [DecidableEq κ] (d : PyDict κ (Arg α)) (lx : Option Nat)
    (l : List (κ × Arg α)) (acc : PyDict κ (Arg α)) (h : acc.WF) : (defaultsLoop d lx l acc).WF := by
  induction l generalizing acc with
  | nil => exact h
  | cons p r ih =>
    obtain ⟨k, v⟩ := p
    unfold defaultsLoop
    split
    · exact ih acc h
    · exact ih _ (PyDict.WF_set _ _ _ h)

theorem withDefaults_get (d out : Sys) (keys : List Key) (vals : List (Arg Row)) (n : Nat)
    (hd : d.WF) (hk : keys.Nodup) (h : withDefaults d keys vals n = .ok out) :
    keys.length = vals.length ∧
    (∀ k a, d.get? k = some a → out.get? k = some a) ∧
    (∀ i (hi : i < keys.length) (hv : i < vals.length), d.get? keys[i] = none →
      out.get? keys[i] = some (defaultOver (some n) vals[i])) ∧
    (∀ k, k ∉ keys → out.get? k = d.get? k) := by
  unfold withDefaults at h
  split at h
  · cases h
  · rename_i o ho
    cases h
    have hw : o.WF := by
      unfold setDefaults at ho
      split at ho
      · cases ho
      · cases ho; exact defaultsLoop_WF _ _ _ _ hd
    obtain ⟨h1, h2, h3⟩ := Props.c02_missing_filled d o keys vals (some n) hk ho
    refine ⟨h1, ?_, ?_, ?_⟩
    · intro k a ha
      have := Props.c02_user_value_kept d o _ _ _ ho k a ha
      rw [PyDict.get?_update _ _ hw, this]; rfl
    · intro i hi hv hn
      rw [PyDict.get?_update _ _ hw, h2 i hi hv hn]; rfl
    · intro k hk'
      rw [PyDict.get?_update _ _ hw, h3 k hk']
      cases d.get? k <;> rfl

theorem withDefaults_total (d : Sys) (keys : List Key) (vals : List (Arg Row)) (n : Nat)
    (h : keys.length = vals.length) : ∃ out, withDefaults d keys vals n = .ok out := by
  unfold withDefaults setDefaults pairDefaults
  simp [h]

theorem firstLen_ok (th : PyDict Key (List Row)) (n : Nat) (h : firstLen th = .ok n) :
    ∃ k l, th.get? k = some l ∧ l.length = n := by
  obtain ⟨es⟩ := th
  unfold firstLen at h
  cases es with
  | nil => cases h
  | cons p r =>
    obtain ⟨k, l⟩ := p
    simp only [Except.ok.injEq] at h
    exact ⟨k, l, by simp [PyDict.get?, PyDict.lookupL], h⟩

theorem firstLen_total (th : PyDict Key (List Row)) (k : Key) (l : List Row)
    (h : th.get? k = some l) : ∃ n, firstLen th = .ok n := by
  obtain ⟨es⟩ := th
  cases es with
  | nil => cases h
  | cons p r => exact ⟨_, rfl⟩

/-- What the length check gives: the common number of points, and one row per point for exactly the
keys the user gave. -/
theorem checked (sys : Sys) (keys : List Key) (th : PyDict Key (List Row)) (n : Nat)
    (h : checkLengthDict sys keys none = .ok th) (hn : firstLen th = .ok n) :
    IsPointCount sys.get? keys none n ∧
    (∀ k l, th.get? k = some l ↔ k ∈ keys ∧ ∃ a, sys.get? k = some a ∧ Broadcast n a l) ∧
    (∀ k ∈ keys, ∀ a, sys.get? k = some a → ∃ l, th.get? k = some l ∧ l.length = n) := by
  obtain ⟨m, h1, h2, h3⟩ := Props.c01_accepted sys keys none th h
  obtain ⟨k, l, hk, hl⟩ := firstLen_ok th n hn
  obtain ⟨hkk, a, ha, -⟩ := (h2 k l).mp hk
  obtain ⟨l', hl', hlen⟩ := h3 k hkk a ha
  rw [hk] at hl'
  cases hl'
  have : m = n := by omega
  subst this
  exact ⟨h1, h2, h3⟩

theorem runChunk_points {α β : Type} (f : α → Except PyErr β) (l : List α) (r : List β)
    (h : runChunk f l = .ok r) :
    r.length = l.length ∧ ∀ (i : Nat) (x : α), l[i]? = some x → ∃ b, r[i]? = some b ∧ f x = .ok b := by
  have hm := (runChunk_ok f l r).mp h
  have hlen : r.length = l.length := by
    have := congrArg List.length hm; simpa using this.symm
  refine ⟨hlen, ?_⟩
  intro i x hx
  have h2 : (l.map f)[i]? = (r.map Except.ok)[i]? := by rw [hm]
  rw [List.getElem?_map, List.getElem?_map, hx] at h2
  cases hb : r[i]? with
  | none => rw [hb] at h2; simp at h2
  | some b =>
    rw [hb] at h2
    simp only [Option.map_some, Option.some.injEq] at h2
    exact ⟨b, rfl, h2⟩

theorem points_ok (d : Sys) (keys : List Key) (n : Nat) (pts : List (List Row))
    (h : points d keys n = .ok pts) :
    pts.length = n ∧ ∀ i < n, ∃ row, pts[i]? = some row ∧ row.length = keys.length ∧
      ∀ (j : Nat) (k : Key), keys[j]? = some k → ∃ r, row[j]? = some r ∧ at_ d k i = .ok r := by
  obtain ⟨h1, h2⟩ := runChunk_points _ _ _ h
  refine ⟨by simpa using h1, ?_⟩
  intro i hi
  obtain ⟨row, hr, hrow⟩ := h2 i i (by simp [hi])
  obtain ⟨h3, h4⟩ := runChunk_points _ _ _ hrow
  exact ⟨row, hr, h3, h4⟩

theorem runChunk_total {α β : Type} (f : α → Except PyErr β) (l : List α)
    (h : ∀ x ∈ l, ∃ b, f x = .ok b) : ∃ r, runChunk f l = .ok r := by
  induction l with
  | nil => exact ⟨[], rfl⟩
  | cons x l ih =>
    obtain ⟨b, hb⟩ := h x (by simp)
    obtain ⟨r, hr⟩ := ih (fun y hy => h y (by simp [hy]))
    exact ⟨b :: r, by simp [runChunk, hb, hr]⟩

theorem points_total (d : Sys) (keys : List Key) (n : Nat)
    (h : ∀ k ∈ keys, ∃ l, d.get? k = some (.arr l) ∧ l.length = n) :
    ∃ pts, points d keys n = .ok pts := by
  apply runChunk_total
  intro i hi
  apply runChunk_total
  intro k hk
  obtain ⟨l, hl, hn⟩ := h k hk
  have : i < l.length := by simp at hi; omega
  exact ⟨l[i], by simp [at_, hl, this]⟩

theorem at_arr (d : Sys) (k : Key) (i : Nat) (l : List Row) (h : d.get? k = some (.arr l)) (r : Row) :
    at_ d k i = .ok r ↔ l[i]? = some r := by
  unfold at_
  rw [h]
  cases hl : l[i]? <;> simp [hl]

theorem Broadcast.len {α : Type} {n : Nat} {a : Arg α} {l : List α} (h : Broadcast n a l) :
    l.length = n := by
  cases h with
  | scalar a => simp
  | single a => simp
  | full l h _ => exact h

end Verif.CalcTypes
