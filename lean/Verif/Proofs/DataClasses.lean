import Verif.Model.DataClasses
import Verif.Props.Toolbox

/-! # Lemmas on the constructors of the data classes -/

namespace Verif.DataClasses
open Verif Verif.Toolbox Verif.Spec

variable {α : Type}

theorem erase_WF {κ ν : Type} [DecidableEq κ] (d : PyDict κ ν) (k : κ) (h : d.WF) : (d.erase k).WF := by
  unfold PyDict.WF PyDict.keys PyDict.erase at *
  exact h.sublist ((List.filter_sublist).map _)

theorem fillLoop_WF {κ : Type} [DecidableEq κ] (d : PyDict κ (Arg α)) (n : Nat) (keys : List κ)
    (acc out : PyDict κ (List α)) (ha : acc.WF) (h : fillLoop d n keys acc = .ok out) : out.WF := by
  induction keys generalizing acc with
  | nil => simp only [fillLoop, Except.ok.injEq] at h; subst h; exact ha
  | cons k ks ih =>
    simp only [fillLoop] at h
    cases hg : d.get? k with
    | none => rw [hg] at h; exact ih acc ha h
    | some v =>
      rw [hg] at h
      simp only at h
      cases hx : expand n v with
      | error e => rw [hx] at h; simp at h
      | ok l => rw [hx] at h; exact ih _ (PyDict.WF_set _ _ _ ha) h

theorem checkLengthDict_WF {κ : Type} [DecidableEq κ] (d : PyDict κ (Arg α)) (keys : List κ)
    (lx : Option Nat) (out : PyDict κ (List α)) (h : checkLengthDict d keys lx = .ok out) : out.WF := by
  unfold checkLengthDict at h
  split at h
  · cases h
  · exact fillLoop_WF _ _ _ _ _ PyDict.WF_empty h

theorem updateArr_get (v : PyDict String (Arg α)) (d : PyDict String (List α)) (hd : d.WF) (k : String) :
    (updateArr v d).get? k = ((d.get? k).map Arg.arr).or (v.get? k) := by
  obtain ⟨l⟩ := d
  simp only [updateArr, PyDict.WF, PyDict.keys] at *
  have : ∀ (l : List (String × List α)) (v : PyDict String (Arg α)), (l.map Prod.fst).Nodup →
      (l.foldl (fun acc p => acc.set p.1 (.arr p.2)) v).get? k =
        ((PyDict.lookupL l k).map Arg.arr).or (v.get? k) := by
    intro l
    induction l with
    | nil => intro v _; simp [PyDict.lookupL]
    | cons p r ih =>
      intro v hn
      simp only [List.map_cons, List.nodup_cons] at hn
      simp only [List.foldl_cons]
      rw [ih _ hn.2]
      obtain ⟨k', x⟩ := p
      by_cases hk : k' = k
      · subst hk
        have hnone : PyDict.lookupL r k' = none := by
          cases hl : PyDict.lookupL r k' with
          | none => rfl
          | some w => exact absurd ((PyDict.mem_keys_iff (⟨r⟩ : PyDict String (List α)) k').mpr ⟨w, hl⟩) hn.1
        simp [PyDict.lookupL, hnone]
      · simp [PyDict.lookupL, hk, PyDict.get?_set]
  exact this l v hd

/-- After the lengths are brought together. -/
theorem lengths_get (v : PyDict String (Arg α)) (keys : List String) (d : PyDict String (List α))
    (h : checkLengthDict v keys none = .ok d) :
    ∃ n, (∀ k ∈ keys, ∀ a, v.get? k = some a →
        ∃ l, Broadcast n a l ∧ l.length = n ∧ (updateArr v d).get? k = some (.arr l)) ∧
      ∀ k, v.get? k = none → (updateArr v d).get? k = none := by
  obtain ⟨n, _, h2, h3⟩ := Verif.Props.c01_accepted v keys none d h
  have hw := checkLengthDict_WF _ _ _ _ h
  refine ⟨n, ?_, ?_⟩
  · intro k hk a ha
    obtain ⟨l, hl, hlen⟩ := h3 k hk a ha
    obtain ⟨_, a', ha', hb⟩ := (h2 k l).mp hl
    rw [ha] at ha'; cases ha'
    exact ⟨l, hb, hlen, by rw [updateArr_get _ _ hw, hl]; rfl⟩
  · intro k hk
    rw [updateArr_get _ _ hw, hk]
    cases hd : d.get? k with
    | none => rfl
    | some l =>
      obtain ⟨_, a, ha, _⟩ := (h2 k l).mp hd
      rw [hk] at ha; cases ha

/-! ### Renaming -/

theorem move_data (s : St α) (m : Move) (key : String) :
    (move s m).data.get? key = if m.old = key then none else s.data.get? key := by
  unfold move
  cases h : s.data.get? m.old with
  | none =>
    by_cases hk : m.old = key
    · simp [← hk, h]
    · simp [hk]
  | some v => exact PyDict.get?_erase _ _ _

theorem move_vals (s : St α) (m : Move) (key : String) :
    (move s m).vals.get? key = if m.new = key then (s.data.get? m.old).or (s.vals.get? key)
      else s.vals.get? key := by
  unfold move
  cases h : s.data.get? m.old with
  | none => simp
  | some v =>
    show (s.vals.set m.new v).get? key = _
    rw [PyDict.get?_set]
    simp

theorem move_WF (s : St α) (m : Move) (h : s.data.WF) : (move s m).data.WF := by
  unfold move
  cases s.data.get? m.old with
  | none => exact h
  | some v => exact erase_WF _ _ h

theorem moves_WF (ms : List Move) (s : St α) (h : s.data.WF) : (ms.foldl move s).data.WF := by
  induction ms generalizing s with
  | nil => exact h
  | cons m ms ih => exact ih _ (move_WF s m h)

theorem moves_data (ms : List Move) (s : St α) (key : String) :
    (ms.foldl move s).data.get? key =
      if key ∈ ms.map Move.old then none else s.data.get? key := by
  induction ms generalizing s with
  | nil => simp
  | cons m ms ih =>
    simp only [List.foldl_cons]
    rw [ih, move_data]
    by_cases h1 : key ∈ ms.map Move.old
    · simp [h1]
    · by_cases h2 : m.old = key
      · simp [h2]
      · have h3 : ¬ key = m.old := fun e => h2 e.symm
        rw [if_neg h1, if_neg h2, if_neg]
        rw [List.map_cons, List.mem_cons]
        rintro (h | h)
        · exact h3 h
        · exact h1 h

theorem moves_vals_other (ms : List Move) (s : St α) (key : String) (h : key ∉ ms.map Move.new) :
    (ms.foldl move s).vals.get? key = s.vals.get? key := by
  induction ms generalizing s with
  | nil => rfl
  | cons m ms ih =>
    simp only [List.map_cons, List.mem_cons, not_or] at h
    simp only [List.foldl_cons]
    rw [ih _ h.2, move_vals, if_neg (fun e => h.1 e.symm)]

/-- A value given under one name only, among those stored under the same key. -/
theorem moves_vals_one (ms : List Move) (s : St α) (name key : String) (a : Arg α)
    (hd : s.data.get? name = some a) (hm : ∃ m ∈ ms, m.old = name ∧ m.new = key)
    (hu : ∀ m ∈ ms, m.old = name → m.new = key)
    (ho : ∀ m ∈ ms, m.new = key → m.old ≠ name → s.data.get? m.old = none) :
    (ms.foldl move s).vals.get? key = some a := by
  -- once stored, it stays: the name is no longer in the data
  have stay : ∀ (ms : List Move) (s : St α), s.vals.get? key = some a →
      (∀ m ∈ ms, m.new = key → s.data.get? m.old = none) →
      (ms.foldl move s).vals.get? key = some a := by
    intro ms
    induction ms with
    | nil => intro s hs _; exact hs
    | cons m ms ih =>
      intro s hs hno
      simp only [List.foldl_cons]
      apply ih
      · rw [move_vals]
        by_cases hk : m.new = key
        · rw [if_pos hk, hno m (List.mem_cons_self ..) hk, hs]; rfl
        · rw [if_neg hk, hs]
      · intro m' hm' hk'
        rw [move_data, hno m' (List.mem_cons_of_mem _ hm') hk']
        simp
  induction ms generalizing s with
  | nil => obtain ⟨m, hm, _⟩ := hm; simp at hm
  | cons m ms ih =>
    simp only [List.foldl_cons]
    by_cases hmn : m.old = name ∧ m.new = key
    · apply stay
      · rw [move_vals, if_pos hmn.2, hmn.1, hd]; rfl
      · intro m' hm' hk'
        rw [move_data]
        by_cases h2 : m.old = m'.old
        · rw [if_pos h2]
        · rw [if_neg h2]
          exact ho m' (List.mem_cons_of_mem _ hm') hk' (fun e => h2 (hmn.1.trans e.symm))
    · by_cases h1 : m.old = name
      · exact absurd ⟨h1, hu m (List.mem_cons_self ..) h1⟩ hmn
      · apply ih
        · rw [move_data, if_neg h1]; exact hd
        · obtain ⟨m', hm', h2⟩ := hm
          rcases List.mem_cons.mp hm' with e | e
          · subst e; exact absurd h2 hmn
          · exact ⟨m', e, h2⟩
        · exact fun m' hm' => hu m' (List.mem_cons_of_mem _ hm')
        · intro m' hm' hk' hne
          rw [move_data]
          by_cases h2 : m.old = m'.old
          · rw [if_pos h2]
          · rw [if_neg h2]; exact ho m' (List.mem_cons_of_mem _ hm') hk' hne

/-! ### The whole constructor -/

theorem setGuess_get (k : Kind) (data vals : PyDict String (Arg α)) (key : String) (h : key ≠ "Pguess") :
    (setGuess k data vals).get? key = vals.get? key := by
  unfold setGuess
  split
  · exact PyDict.get?_set_ne _ _ (fun e => h e.symm)
  · rfl

theorem prepare_get (k : Kind) (i : Input α) (hw : i.data.WF) (key : String) (h : key ≠ "Pguess") :
    (prepare k i).1.get? key =
      ((if key ∈ (moves k).map Move.old then none else i.data.get? key)).or
        (((moves k).foldl move ⟨PyDict.empty, i.weights, i.data⟩).vals.get? key) := by
  unfold prepare
  simp only
  rw [PyDict.get?_update _ _ (moves_WF _ _ hw), moves_data, setGuess_get _ _ _ _ h]

/-- What a successful construction went through. -/
theorem build_ok (c : Consts α) (k : Kind) (i : Input α) (b : Built α) (h : build c k i = .ok b) :
    ∃ d w' t, checkLengthDict (prepare k i).1 (allKeys k) none = .ok d ∧
      npoints k (updateArr (prepare k i).1 d) = .ok b.npoints ∧
      withDefaults c k b.npoints (updateArr (prepare k i).1 d) = .ok b.vals ∧
      fillWeights c k b.npoints (prepare k i).2 = .ok w' ∧
      incomplete k b.vals = false ∧
      calculation c k i.calcType b.vals = .ok t ∧ b.calcType = t ∧
      b.density = densityOptions c k i.density ∧ b.weights = finalWeights k t w' ∧
      b.resultKeys = finalResults k t ∧ i.hasEos = true := by
  unfold build at h
  by_cases he : i.hasEos = false
  · rw [if_pos he] at h; cases h
  · rw [if_neg he] at h
    cases hs : satWeightCheck k i with
    | error e => simp only [hs] at h; cases h
    | ok u =>
      simp only [hs] at h
      cases hc : checkLengthDict (prepare k i).1 (allKeys k) none with
      | error e => simp only [hc] at h; cases h
      | ok d =>
        simp only [hc] at h
        cases hn : npoints k (updateArr (prepare k i).1 d) with
        | error e => simp only [hn] at h; cases h
        | ok n =>
          simp only [hn] at h
          unfold finish at h
          cases ha : ambiguous k i.comps (updateArr (prepare k i).1 d) with
          | true => simp only [ha, if_true] at h; cases h
          | false =>
            simp only [ha, Bool.false_eq_true, if_false] at h
            cases hd : withDefaults c k n (updateArr (prepare k i).1 d) with
            | error e => simp only [hd] at h; cases h
            | ok v' =>
              simp only [hd] at h
              cases hf : fillWeights c k n (prepare k i).2 with
              | error e => simp only [hf] at h; cases h
              | ok w' =>
                simp only [hf] at h
                cases hi : incomplete k v' with
                | true => simp only [hi, if_true] at h; cases h
                | false =>
                  simp only [hi, Bool.false_eq_true, if_false] at h
                  cases ht : calculation c k i.calcType v' with
                  | error e => simp only [ht] at h; cases h
                  | ok t =>
                    simp only [ht, Except.ok.injEq] at h
                    subst h
                    exact ⟨d, w', t, rfl, hn, hd, hf, hi, ht, rfl, rfl, rfl, rfl, by simpa using he⟩

theorem withDefaults_keeps (c : Consts α) (k : Kind) (n : Nat) (v out : PyDict String (Arg α))
    (h : withDefaults c k n v = .ok out) (key : String) (a : Arg α) (ha : v.get? key = some a) :
    out.get? key = some a := by
  cases k <;> simp only [withDefaults] at h <;> exact Verif.Props.c02_user_value_kept _ _ _ _ _ h _ _ ha

/-- The number of states recorded is the common length. -/
theorem npoints_eq (k : Kind) (v : PyDict String (Arg α)) (n m : Nat)
    (hall : ∀ key ∈ allKeys k, ∀ a, v.get? key = some a → a.len = n) (h : npoints k v = .ok m) : m = n := by
  have size : ∀ key, key ∈ allKeys k → sizeAt v key = .ok m → m = n := by
    intro key hk hs
    unfold sizeAt at hs
    cases hv : v.get? key with
    | none => rw [hv] at hs; cases hs
    | some a =>
      rw [hv] at hs
      simp only [Except.ok.injEq] at hs
      rw [← hs]; exact hall key hk a hv
  cases k with
  | tlve => exact size "Tlist" (by decide) h
  | flash => exact size "Tlist" (by decide) h
  | liquid => exact size "Tlist" (by decide) h
  | solubility => exact size "delta" (by decide) h
  | saturation =>
    simp only [npoints] at h
    cases h1 : v.get? "rhol" with
    | some a => simp only [h1, Except.ok.injEq] at h; rw [← h]; exact hall "rhol" (by decide) a h1
    | none =>
      cases h2 : v.get? "rhov" with
      | some a => simp only [h1, h2, Except.ok.injEq] at h; rw [← h]; exact hall "rhov" (by decide) a h2
      | none =>
        cases h3 : v.get? "Psat" with
        | some a => simp only [h1, h2, h3, Except.ok.injEq] at h; rw [← h]; exact hall "Psat" (by decide) a h3
        | none => simp only [h1, h2, h3] at h; cases h

/-- Every entry that was prepared is in the object, over the number of states. -/
theorem built_get (c : Consts α) (k : Kind) (i : Input α) (b : Built α) (h : build c k i = .ok b)
    (key : String) (hk : key ∈ allKeys k) (a : Arg α) (ha : (prepare k i).1.get? key = some a) :
    ∃ l, Broadcast b.npoints a l ∧ b.vals.get? key = some (.arr l) := by
  obtain ⟨d, w', t, hc, hn, hd, _⟩ := build_ok c k i b h
  obtain ⟨n, h1, h2⟩ := lengths_get _ _ _ hc
  have hnn : b.npoints = n := by
    apply npoints_eq k _ n _ _ hn
    intro key' hk' a' ha'
    cases hp : (prepare k i).1.get? key' with
    | none => rw [h2 key' hp] at ha'; cases ha'
    | some a0 =>
      obtain ⟨l, _, hl, hg⟩ := h1 key' hk' a0 hp
      rw [hg] at ha'; cases ha'
      exact hl
  obtain ⟨l, hb, _, hg⟩ := h1 key hk a ha
  exact ⟨l, by rw [hnn]; exact hb, withDefaults_keeps c k _ _ _ hd key _ hg⟩

end Verif.DataClasses
