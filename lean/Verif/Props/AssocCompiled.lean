import Verif.Model.AssocCompiled
import Verif.Props.AssocXika

/-!
# C128: the compiled copies of the association solve agree with the python one
-/

namespace Verif.Props
open Verif Verif.Assoc

section numba
variable {K : Type} [Field K] [LinearOrder K]

omit [LinearOrder K] in
theorem inner_fold (n : ℕ) (f : Fin n → K) (g : ℕ → K) (ind j : ℕ) (new : ℕ → K) :
    (List.finRange n).foldl (fun (st : (ℕ → K) × ℕ) t =>
      (Function.update st.1 ind (st.1 ind + f t * g st.2), st.2 + 1)) (new, j) =
      (Function.update new ind (new ind + ∑ t : Fin n, f t * g (j + t)), j + n) := by
  induction n generalizing j new with
  | zero => simp
  | succ n ih =>
    rw [List.finRange_succ, List.foldl_cons, List.foldl_map]
    rw [ih (fun t => f t.succ) (j + 1)]
    simp only [Function.update_self, Function.update_idem, Prod.mk.injEq]
    refine ⟨?_, by omega⟩
    congr 1
    rw [Fin.sum_univ_succ, add_assoc]
    congr 2
    refine Finset.sum_congr rfl fun t _ => ?_
    rw [Fin.val_succ, Nat.add_assoc j 1, Nat.add_comm 1]

omit [LinearOrder K] in
theorem outer_fold (n : ℕ) (F : Fin n → K) (j : ℕ) (new : ℕ → K) :
    let r := (List.finRange n).foldl (fun (st : (ℕ → K) × ℕ) s =>
      (Function.update st.1 st.2 (st.1 st.2 + F s), st.2 + 1)) (new, j)
    (∀ i < j, r.1 i = new i) ∧ ∀ s : Fin n, r.1 (j + s) = new (j + s) + F s := by
  induction n generalizing j new with
  | zero => exact ⟨fun _ _ => rfl, fun s => s.elim0⟩
  | succ n ih =>
    intro r
    have hr : r = (List.finRange n).foldl (fun (st : (ℕ → K) × ℕ) s =>
        (Function.update st.1 st.2 (st.1 st.2 + F s.succ), st.2 + 1))
          (Function.update new j (new j + F 0), j + 1) := by
      show List.foldl _ _ _ = _
      rw [List.finRange_succ, List.foldl_cons, List.foldl_map]
    obtain ⟨h1, h2⟩ := ih (fun s => F s.succ) (j + 1) (Function.update new j (new j + F 0))
    rw [hr]
    refine ⟨fun i hi => ?_, fun s => ?_⟩
    · rw [h1 i (by omega), Function.update_of_ne (by omega)]
    · refine Fin.cases ?_ (fun s => ?_) s
      · have := h1 j (by omega)
        simpa using this
      · have := h2 s
        rw [Function.update_of_ne (by omega)] at this
        have e : j + 1 + (s : ℕ) = j + (s.succ : ℕ) := by rw [Fin.val_succ]; omega
        rwa [e] at this

variable {n : ℕ}

omit [LinearOrder K] in
theorem numbaRhs_eq (c : Fin n → Fin n → K) (old : Fin n → K) : numbaRhs c old = rhs c old := by
  have hin : ∀ s ind new, (numbaInner (c s) old ind new).1 =
      Function.update new ind (new ind + ∑ t, c s t * old t) := fun s ind new => by
    rw [numbaInner, inner_fold n (c s) (atN old) ind 0 new]
    simp only [Nat.zero_add]
    congr 2
    exact Finset.sum_congr rfl fun t _ => by simp [atN]
  funext s
  unfold numbaRhs rhs numbaSums
  simp only [hin]
  have := (outer_fold n (fun s => ∑ t, c s t * old t) 0 fun _ => (1 : K)).2 s
  simp only [Nat.zero_add] at this
  rw [this]

theorem numbaIter_eq (c : Fin n → Fin n → K) (tol damp : K) (fuel : ℕ) (X : Fin n → K) :
    numbaIter c tol damp fuel X = iter c tol damp fuel X := by
  induction fuel generalizing X with
  | zero => rfl
  | succ f ih => simp only [numbaIter, iter, numbaRhs_eq, ih, update]; rfl

theorem numbaSweep_eq (tol damp : K) (maxiter : ℕ) (cs : List (Fin n → Fin n → K)) (X : Fin n → K) :
    numbaSweep tol damp maxiter cs X = sweep tol damp maxiter cs X := by
  induction cs generalizing X with
  | nil => rfl
  | cons c cs ih => simp only [numbaSweep, sweep, numbaIter_eq, ih]

/-- **C128** (numba): for every input the numba copy returns what the python code returns, fractions
and errors. -/
theorem c128_numba (S : Sites K n) (M : K) (rows : List (K × (ℕ → ℕ → K))) :
    numbaXika S M rows = calcXika S M rows := by
  unfold numbaXika calcXika
  cases h : S.vol with
  | klab v =>
    show numbaXika4 S v M rows = _
    unfold numbaXika4
    rw [numbaSweep_eq]
    congr 1
    refine List.map_congr_left fun r _ => ?_
    funext s t
    simp only [coef, h, Vol.at]
  | ijklab v =>
    show numbaXika6 S v M rows = _
    unfold numbaXika6
    rw [numbaSweep_eq]
    congr 1
    refine List.map_congr_left fun r _ => ?_
    funext s t
    simp only [coef, h, Vol.at]

end numba

section cython
variable {K : Type} [Field K] [LinearOrder K] [IsStrictOrderedRing K] {n : ℕ}

omit [IsStrictOrderedRing K] in
theorem cyTest_fold (n : ℕ) (a b : Fin n → K) (o m : K) :
    (List.finRange n).foldl (fun (st : K × K) z => (st.1 + a z, if b z > st.2 then b z else st.2))
      (o, m) = (o + ∑ z, a z, (List.ofFn b).foldl max m) := by
  induction n generalizing o m with
  | zero => simp
  | succ n ih =>
    rw [List.finRange_succ, List.foldl_cons, List.foldl_map, ih (fun z => a z.succ) fun z => b z.succ]
    rw [Fin.sum_univ_succ, List.ofFn_succ, List.foldl_cons, add_assoc]
    congr 2
    rcases lt_or_ge m (b 0) with h | h
    · rw [if_pos h, max_eq_right h.le]
    · rw [if_neg (not_lt.2 h), max_eq_left h]

omit [IsStrictOrderedRing K] in
theorem cyTest_eq (new old : Fin n → K) :
    cyTest new old = (obj new old, (List.ofFn new).foldl max 0) := by
  rw [cyTest, cyTest_fold n (fun z => |new z - old z|) new 0 0, zero_add, obj]

omit [Field K] [IsStrictOrderedRing K] in
theorem le_foldl_max (l : List K) (m : K) : m ≤ l.foldl max m ∧ ∀ x ∈ l, x ≤ l.foldl max m := by
  induction l generalizing m with
  | nil => simp
  | cons a l ih =>
    obtain ⟨h1, h2⟩ := ih (max m a)
    refine ⟨(le_max_left _ _).trans h1, fun x hx => ?_⟩
    rcases List.mem_cons.1 hx with rfl | hx
    · exact (le_max_right _ _).trans h1
    · exact h2 x hx

omit [IsStrictOrderedRing K] in
theorem le_vmax (v : Fin n → K) (s : Fin n) : v s ≤ vmax v := by
  have hm : v s ∈ List.ofFn v := (List.mem_ofFn' _ _).2 ⟨s, rfl⟩
  unfold vmax
  cases h : List.ofFn v with
  | nil => rw [h] at hm; simp at hm
  | cons a l =>
    rw [h] at hm
    show v s ≤ l.foldl max a
    rcases List.mem_cons.1 hm with e | hm
    · rw [e]; exact (le_foldl_max l a).1
    · exact (le_foldl_max l a).2 _ hm

theorem le_cymax (new old : Fin n → K) (s : Fin n) : new s ≤ (cyTest new old).2 := by
  rw [cyTest_eq]
  exact (le_foldl_max _ _).2 _ ((List.mem_ofFn' _ _).2 ⟨s, rfl⟩)

theorem obj_le (new old : Fin n → K) (h1 : Phys new) (h2 : Phys old) : obj new old ≤ n := by
  calc obj new old ≤ ∑ _s : Fin n, (1 : K) := by
        refine Finset.sum_le_sum fun s _ => ?_
        rw [abs_le]
        constructor <;> linarith [(h1 s).1, (h1 s).2, (h2 s).1, (h2 s).2]
    _ = n := by simp

omit [IsStrictOrderedRing K] in
theorem obj_zero_of_empty (hn : n = 0) (new old : Fin n → K) : obj new old = 0 := by
  subst hn; simp [obj]

/-- **C128** (cython, weak bonds): as long as the strengths of `n` sites add up to at most `S` with
`n (1 + S) ≤ 1000`, the cython copy does the same steps as the python code at one density. -/
theorem c128_cython_iter_partial (c : Fin n → Fin n → K) (hc : ∀ s t, 0 ≤ c s t) {S : K} (hS0 : 0 ≤ S)
    (hS : ∀ s, ∑ t, c s t ≤ S) (hn : n * (1 + S) ≤ 1000) {tol : K} (htol : 0 < tol) (damp : K)
    (fuel : ℕ) (X : Fin n → K) (hX : ∀ s, X s ≤ 1) (hXm : ∀ s, n ≤ 1000 * X s ∧ 0 < X s) :
    cyIter c tol damp fuel X = .ok (iter c tol damp fuel X) := by
  induction fuel generalizing X with
  | zero => rfl
  | succ f ih =>
    have hP : Phys X := fun s => ⟨(hXm s).2, hX s⟩
    have hR : Phys (rhs c X) := rhs_phys c hc X fun s => (hP s).1.le
    rw [cyIter, if_neg (by
      rintro ⟨s, h⟩
      have := den_ge_one c hc X (fun s => (hP s).1.le) s
      linarith), iter]
    simp only
    have e1 : (cyTest (rhs c X) X).1 = obj (rhs c X) X := by rw [cyTest_eq]
    rw [e1]
    by_cases h : obj (rhs c X) X < tol
    · rw [if_pos h, if_pos h]
    rw [if_neg h, if_neg h]
    rcases Nat.eq_zero_or_pos n with h0 | h0
    · exact absurd htol (by rw [obj_zero_of_empty h0] at h; exact h)
    have hge : ∀ s, (n : K) ≤ 1000 * rhs c X s := fun s => by
      have := rhs_ge c hc X hP hS s
      rw [div_le_iff₀ (by linarith)] at this
      have h2 : (n : K) * (1 + S) ≤ 1000 * rhs c X s * (1 + S) := by linarith
      exact le_of_mul_le_mul_right h2 (by linarith)
    have hm := le_cymax (rhs c X) X ⟨0, h0⟩
    have hv := le_vmax X ⟨0, h0⟩
    have hpos : 0 < (cyTest (rhs c X) X).2 := (hR ⟨0, h0⟩).1.trans_le hm
    have hvpos : 0 < vmax X := (hP ⟨0, h0⟩).1.trans_le hv
    have ho := obj_le _ _ hR hP
    rw [if_neg hpos.ne', if_neg (by
      rw [gt_iff_lt, not_lt, div_le_iff₀ hpos]; linarith [hge ⟨0, h0⟩])]
    have hup : update damp X (rhs c X) = rhs c X := by
      rw [update, if_neg]
      rw [gt_iff_lt, not_lt, div_le_iff₀ hvpos]; linarith [(hXm ⟨0, h0⟩).1]
    rw [hup, ih (rhs c X) (fun s => (hR s).2) fun s => ⟨hge s, (hR s).1⟩]
    cases hi : iter c tol damp f (rhs c X) with
    | mk Y o => cases o <;> rfl

/-- **C128** (cython, weak bonds): the whole calculation, for every array of densities. -/
theorem c128_cython_partial (S : Sites K n) (h : NonNeg S) (rows : List (K × (ℕ → ℕ → K)))
    (hr : ∀ r ∈ rows, 0 ≤ r.1 ∧ ∀ i j, 0 ≤ r.2 i j) {B : K} (hB0 : 0 ≤ B)
    (hB : ∀ r ∈ rows, ∀ s, ∑ t, coef S (602214086 / 10 ^ 12) r.1 r.2 s t ≤ B)
    (hn : n * (1 + B) ≤ 1000) (hn5 : n ≤ 500) :
    cyXika S rows = .ok (calcXika S (602214086 / 10 ^ 12) rows) := by
  have key : ∀ cs : List (Fin n → Fin n → K),
      (∀ c ∈ cs, (∀ s t, 0 ≤ c s t) ∧ ∀ s, ∑ t, c s t ≤ B) →
      ∀ X : Fin n → K, (∀ s, X s ≤ 1) → (∀ s, (n : K) ≤ 1000 * X s ∧ 0 < X s) →
      cySweep (1 / 10 ^ 12) (1 / 10) 500 cs X = .ok (sweep (1 / 10 ^ 12) (1 / 10) 500 cs X) := by
    intro cs hcs
    induction cs with
    | nil => intros; rfl
    | cons c cs ih =>
      intro X hX hXm
      obtain ⟨hc, hS⟩ := hcs c (by simp)
      have hit := c128_cython_iter_partial c hc hB0 hS hn (tol := 1 / 10 ^ 12) (by positivity)
        (1 / 10) 500 X hX hXm
      have inv : ∀ (f : ℕ) (X : Fin n → K), (∀ s, X s ≤ 1) → (∀ s, (n : K) ≤ 1000 * X s ∧ 0 < X s) →
          (∀ s, (iter c (1 / 10 ^ 12) (1 / 10) f X).1 s ≤ 1) ∧
          ∀ s, (n : K) ≤ 1000 * (iter c (1 / 10 ^ 12) (1 / 10) f X).1 s ∧
            0 < (iter c (1 / 10 ^ 12) (1 / 10) f X).1 s := by
        intro f
        induction f with
        | zero => intro X h1 h2; exact ⟨h1, h2⟩
        | succ f ihf =>
          intro X h1 h2
          have hP : Phys X := fun s => ⟨(h2 s).2, h1 s⟩
          have hR : Phys (rhs c X) := rhs_phys c hc X fun s => (hP s).1.le
          rw [iter]
          split
          · exact ⟨h1, h2⟩
          · have hge : ∀ s, (n : K) ≤ 1000 * rhs c X s := fun s => by
              have := rhs_ge c hc X hP hS s
              rw [div_le_iff₀ (by linarith)] at this
              have h2 : (n : K) * (1 + B) ≤ 1000 * rhs c X s * (1 + B) := by linarith
              exact le_of_mul_le_mul_right h2 (by linarith)
            have hup : Phys (update (1 / 10) X (rhs c X)) :=
              update_phys (by norm_num) (by norm_num) hP hR
            have hup2 : ∀ s, (n : K) ≤ 1000 * update (1 / 10) X (rhs c X) s := fun s => by
              unfold update
              split
              · have := (h2 s).1; have := hge s; simp only; linarith
              · exact hge s
            have := ihf _ (fun s => (hup s).2) fun s => ⟨hup2 s, (hup s).1⟩
            split <;> rename_i he <;> rw [he] at this <;> exact this
      obtain ⟨i1, i2⟩ := inv 500 X hX hXm
      rw [cySweep, hit]
      simp only
      rw [ih (fun c hc => hcs c (by simp [hc])) _ i1 i2, sweep]
  unfold cyXika calcXika
  refine key _ ?_ _ (fun s => by norm_num) fun s => ?_
  · intro c hc
    obtain ⟨r, hr', rfl⟩ := List.mem_map.1 hc
    exact ⟨c21_coef_nonneg S h (by unfold cyMolecules; positivity) (hr r hr').1 r.2 (hr r hr').2,
      hB r hr'⟩
  · have : (n : K) ≤ 500 := by exact_mod_cast hn5
    constructor
    · linarith
    · norm_num

/-- One step of the cython copy from physical elements: no division by zero, and the next elements are
physical. -/
theorem cyIter_succ (c : Fin n → Fin n → K) (hc : ∀ s t, 0 ≤ c s t) {tol damp : K} (htol : 0 < tol)
    (hd : 0 < damp) (hd1 : damp ≤ 1) (f : ℕ) (X : Fin n → K) (hX : Phys X) :
    ∃ Y, Phys Y ∧ cyIter c tol damp (f + 1) X =
      if obj (rhs c X) X < tol then .ok (X, some (obj (rhs c X) X)) else
        match cyIter c tol damp f Y with
        | .error e => .error e
        | .ok (X, some e) => .ok (X, some e)
        | .ok (Z, none) => .ok (Z, some (obj (rhs c X) X)) := by
  have hR : Phys (rhs c X) := rhs_phys c hc X fun s => (hX s).1.le
  refine ⟨if (cyTest (rhs c X) X).1 / (cyTest (rhs c X) X).2 > 1000 then
    fun s => X s + damp * (rhs c X s - X s) else rhs c X, ?_, ?_⟩
  · split
    · intro s
      have := hX s; have := hR s
      constructor
      · nlinarith
      · nlinarith
    · exact hR
  · rw [cyIter, if_neg (by
      rintro ⟨s, h⟩
      have := den_ge_one c hc X (fun s => (hX s).1.le) s
      linarith)]
    have e1 : (cyTest (rhs c X) X).1 = obj (rhs c X) X := by rw [cyTest_eq]
    simp only
    by_cases h : obj (rhs c X) X < tol
    · rw [if_pos (by rwa [e1]), if_pos h, e1]
    · rw [if_neg (by rwa [e1]), if_neg h]
      rcases Nat.eq_zero_or_pos n with h0 | h0
      · exact absurd htol (by rw [obj_zero_of_empty h0] at h; exact h)
      have hpos : 0 < (cyTest (rhs c X) X).2 :=
        (hR ⟨0, h0⟩).1.trans_le (le_cymax (rhs c X) X ⟨0, h0⟩)
      rw [if_neg hpos.ne']
      simp only [e1]
      generalize cyIter c tol damp f _ = z
      rcases z with e | ⟨Z, _ | e⟩ <;> rfl

/-- **C128** (cython, physical inputs): with non-negative strengths the cython copy raises no error at
one density, its elements stay in `(0, 1]`, and an error below the tolerance is the residual of the
elements returned. -/
theorem c128_cython_iter_phys (c : Fin n → Fin n → K) (hc : ∀ s t, 0 ≤ c s t) {tol damp : K}
    (htol : 0 < tol) (hd : 0 < damp) (hd1 : damp ≤ 1) (fuel : ℕ) (X : Fin n → K)
    (hX : ∀ s, 0 < X s ∧ X s ≤ 1) :
    ∃ Y o, cyIter c tol damp fuel X = .ok (Y, o) ∧ (∀ s, 0 < Y s ∧ Y s ≤ 1) ∧
      ∀ e ∈ o, e < tol → e = ∑ s, |1 / (1 + ∑ t, c s t * Y t) - Y s| := by
  induction fuel generalizing X with
  | zero => exact ⟨X, none, rfl, hX, by simp⟩
  | succ f ih =>
    obtain ⟨Y, hY, e1⟩ := cyIter_succ c hc htol hd hd1 f X hX
    rw [e1]
    by_cases h : obj (rhs c X) X < tol
    · refine ⟨X, _, if_pos h, hX, fun e he _ => ?_⟩
      rw [Option.mem_some_iff] at he
      exact he.symm
    · rw [if_neg h]
      obtain ⟨Z, o, eZ, hZ, hr⟩ := ih Y hY
      rw [eZ]
      cases o with
      | none =>
        refine ⟨Z, _, rfl, hZ, fun e he h1 => ?_⟩
        rw [Option.mem_some_iff] at he
        exact absurd (he ▸ h1) h
      | some e => exact ⟨Z, _, rfl, hZ, hr⟩

/-- **C128** (cython, physical inputs): for every array of densities there is a result, one entry for
each density, with fractions in `(0, 1]`. -/
theorem c128_cython_phys (S : Sites K n) (h : NonNeg S) (rows : List (K × (ℕ → ℕ → K)))
    (hr : ∀ r ∈ rows, 0 ≤ r.1 ∧ ∀ i j, 0 ≤ r.2 i j) :
    ∃ l, cyXika S rows = .ok l ∧ l.length = rows.length ∧ ∀ q ∈ l, ∀ s, 0 < q.1 s ∧ q.1 s ≤ 1 := by
  have key : ∀ cs : List (Fin n → Fin n → K), (∀ c ∈ cs, ∀ s t, 0 ≤ c s t) →
      ∀ X : Fin n → K, Phys X → ∃ l, cySweep (1 / 10 ^ 12) (1 / 10) 500 cs X = .ok l ∧
        l.length = cs.length ∧ ∀ q ∈ l, ∀ s, 0 < q.1 s ∧ q.1 s ≤ 1 := by
    intro cs
    induction cs with
    | nil => intro _ X _; exact ⟨[], rfl, rfl, by simp⟩
    | cons c cs ih =>
      intro hcs X hX
      obtain ⟨Y, o, e1, hY, -⟩ := c128_cython_iter_phys c (hcs c (by simp)) (tol := 1 / 10 ^ 12)
        (damp := 1 / 10) (by positivity) (by norm_num) (by norm_num) 500 X hX
      obtain ⟨l, e2, hl, hq⟩ := ih (fun c hc => hcs c (by simp [hc])) Y hY
      refine ⟨(Y, o) :: l, by rw [cySweep, e1]; simp only; rw [e2], by simp [hl], ?_⟩
      intro q hq'
      rcases List.mem_cons.1 hq' with rfl | hq'
      · exact hY
      · exact hq q hq'
  obtain ⟨l, e1, hl, hq⟩ := key (rows.map fun r => coef S cyMolecules r.1 r.2) (by
    intro c hc
    obtain ⟨r, hr', rfl⟩ := List.mem_map.1 hc
    exact c21_coef_nonneg S h (by unfold cyMolecules; positivity) (hr r hr').1 r.2 (hr r hr').2)
    (fun _ => 1 / 2) fun s => by constructor <;> norm_num
  exact ⟨l, e1, by simpa using hl, hq⟩

end cython

/-- **C128** (cython, converged): at one density, from any physical starting elements, the two codes
agree to `2 tol / (m ^ 2 - tol)`, with `m = 1 / (1 + S)`, whenever both report an error below the
tolerance.  Missing for the full property: exact agreement, and any bound when the iterations run out
(`c128_violated_cython`). -/
theorem c128_cython_accuracy_partial {n : ℕ} (c : Fin n → Fin n → ℝ) (hc : ∀ s t, 0 ≤ c s t) {S : ℝ}
    (hS0 : 0 ≤ S) (hS : ∀ s, ∑ t, c s t ≤ S) {tol damp : ℝ} (htol0 : 0 < tol)
    (htol : tol < (1 / (1 + S)) ^ 2) (hd : 0 < damp) (hd1 : damp ≤ 1) (fuel fuel' : ℕ)
    (X X' Y Y' : Fin n → ℝ) {e e' : ℝ} (hX : ∀ s, 0 < X s ∧ X s ≤ 1) (hX' : ∀ s, 0 < X' s ∧ X' s ≤ 1)
    (hY : iter c tol damp fuel X = (Y, some e)) (hY' : cyIter c tol damp fuel' X' = .ok (Y', some e'))
    (he : e < tol) (he' : e' < tol) (s : Fin n) :
    |Y s - Y' s| ≤ 2 * (tol / ((1 / (1 + S)) ^ 2 - tol)) := by
  obtain ⟨Z, hZ, fZ⟩ := c62_exists _ hc
  have rY := c62_reported c tol damp fuel X (e := e) (by rw [hY]) he
  have pY := c21_iter_phys c hc tol hd hd1 fuel X hX
  rw [hY] at rY pY
  obtain ⟨W, o, e1, pW, rW⟩ := c128_cython_iter_phys c hc htol0 hd hd1 fuel' X' hX'
  rw [hY'] at e1
  obtain ⟨rfl, rfl⟩ : Y' = W ∧ some e' = o := by simpa using e1
  have a1 := c62_accuracy c hc hS0 hS Y Z pY hZ fZ htol (by rw [← rY]; exact he) s
  have a2 := c62_accuracy c hc hS0 hS Y' Z pW hZ fZ htol (by rw [← rW e' rfl he']; exact he') s
  rw [abs_le] at *
  constructor <;> linarith [a1.1, a1.2, a2.1, a2.2]

/-- The scalar iteration of the cython copy behind `twoSites c`, on numerators and denominators. -/
def cyRun (c : ℕ) : ℕ → ℕ → ℕ → ℕ × ℕ × Bool
  | 0, p, q => (p, q, false)
  | f + 1, p, q =>
    let D := q + c * p
    let d := (q * q - p * D) + (p * D - q * q)
    if 2 * d * 10 ^ 12 < q * D then (p, q, true)
    else if 2 * d > 1000 * (q * q) then cyRun c f (9 * (p * D) + q * q) (10 * (q * D))
    else cyRun c f q D

theorem cyIter_run (c f p q : ℕ) (hp : 0 < p) (hq : 0 < q) :
    ∃ o, cyIter (n := 2) (fun s t => if s = t then 0 else (c : ℚ)) (1 / 10 ^ 12) (1 / 10) f
        (fun _ => (p : ℚ) / q) = .ok (fun _ => ((cyRun c f p q).1 : ℚ) / (cyRun c f p q).2.1, o) ∧
      ((cyRun c f p q).2.2 = false → ∀ e ∈ o, ¬ e < 1 / 10 ^ 12) ∧ (0 < f → o.isSome) := by
  induction f generalizing p q with
  | zero => exact ⟨none, rfl, by simp, by simp⟩
  | succ f ih =>
    have hp' : (0 : ℚ) < p := by exact_mod_cast hp
    have hq' : (0 : ℚ) < q := by exact_mod_cast hq
    have hD : 0 < q + c * p := by omega
    have hD' : (0 : ℚ) < q + c * p := by exact_mod_cast hD
    have hnew : (1 : ℚ) / (1 + c * (p / q)) = q / (q + c * p) := by
      field_simp
    have habs : |(q : ℚ) / (q + c * p) - p / q| =
        ((q * q - p * (q + c * p)) + (p * (q + c * p) - q * q) : ℕ) / (q * (q + c * p)) := by
      have e : (q : ℚ) / (q + c * p) - p / q = (q * q - p * (q + c * p)) / (q * (q + c * p)) := by
        field_simp
      rw [e, abs_div, abs_of_pos (mul_pos hq' hD')]
      congr 1
      rcases Nat.le_total (q * q) (p * (q + c * p)) with h | h
      · rw [Nat.sub_eq_zero_of_le h, zero_add, Nat.cast_sub h, abs_of_nonpos]
        · push_cast; ring
        · have : ((q * q : ℕ) : ℚ) ≤ (p * (q + c * p) : ℕ) := by exact_mod_cast h
          push_cast at this; linarith
      · rw [Nat.sub_eq_zero_of_le h, add_zero, Nat.cast_sub h, abs_of_nonneg]
        · push_cast; ring
        · have : ((p * (q + c * p) : ℕ) : ℚ) ≤ (q * q : ℕ) := by exact_mod_cast h
          push_cast at this; linarith
    have hnz : ¬ ∃ s : Fin 2, 1 + ∑ t, (fun s t : Fin 2 => if s = t then 0 else (c : ℚ)) s t *
        (fun _ : Fin 2 => (p : ℚ) / q) t = 0 := by
      rintro ⟨s, h⟩
      have : (0 : ℚ) < 1 + c * (p / q) := by positivity
      fin_cases s <;> simp [Fin.sum_univ_two] at h <;> linarith
    have htest : cyTest (n := 2) (fun _ => (q : ℚ) / (q + c * p)) (fun _ => (p : ℚ) / q) =
        (2 * |(q : ℚ) / (q + c * p) - p / q|, (q : ℚ) / (q + c * p)) := by
      have : (0 : ℚ) ≤ q / (q + c * p) := by positivity
      rw [cyTest_eq, obj_const]
      simp [List.ofFn_succ, this]
    rw [cyIter, if_neg hnz, cyRun]
    simp only [rhs_const, hnew, htest, habs]
    generalize hd : (q * q - p * (q + c * p)) + (p * (q + c * p) - q * q) = d
    have htest : (2 * ((d : ℚ) / (q * (q + c * p))) < 1 / 10 ^ 12) ↔
        2 * d * 10 ^ 12 < q * (q + c * p) := by
      rw [← mul_div_assoc, div_lt_div_iff₀ (by positivity) (by positivity), one_mul]
      exact_mod_cast Iff.rfl
    by_cases h1 : 2 * d * 10 ^ 12 < q * (q + c * p)
    · rw [if_pos (htest.2 h1), if_pos h1]
      exact ⟨_, rfl, by simp, by simp⟩
    · have hmax : (q : ℚ) / (q + c * p) ≠ 0 := by positivity
      rw [if_neg (fun h => h1 (htest.1 h)), if_neg h1, if_neg hmax]
      have hdamp : (2 * ((d : ℚ) / (q * (q + c * p))) / (q / (q + c * p)) > 1000) ↔
          2 * d > 1000 * (q * q) := by
        have : 2 * ((d : ℚ) / (q * (q + c * p))) / (q / (q + c * p)) = 2 * d / (q * q) := by
          field_simp
        rw [this, gt_iff_lt, lt_div_iff₀ (by positivity)]
        exact_mod_cast Iff.rfl
      by_cases h2 : 2 * d > 1000 * (q * q)
      · rw [if_pos h2]
        simp only [if_pos (hdamp.2 h2)]
        have e : (fun _ : Fin 2 => (p : ℚ) / q + 1 / 10 * (q / (q + c * p) - p / q)) = fun _ =>
            ((9 * (p * (q + c * p)) + q * q : ℕ) : ℚ) / (10 * (q * (q + c * p)) : ℕ) := by
          funext s
          push_cast
          field_simp
          ring
        obtain ⟨o, e1, h3, -⟩ := ih (9 * (p * (q + c * p)) + q * q) (10 * (q * (q + c * p))) (by positivity)
          (by positivity)
        rw [e, e1]
        cases o with
        | some e => exact ⟨some e, rfl, h3, by simp⟩
        | none =>
          refine ⟨_, rfl, fun _ e he => ?_, by simp⟩
          rw [Option.mem_some_iff] at he
          rw [← he]
          exact fun h => h1 (htest.1 h)
      · rw [if_neg h2]
        simp only [if_neg (fun h => h2 (hdamp.1 h))]
        have e : (fun _ : Fin 2 => (q : ℚ) / (q + c * p)) = fun _ => (q : ℚ) / (q + c * p : ℕ) := by
          push_cast; rfl
        obtain ⟨o, e1, h3, -⟩ := ih q (q + c * p) hq hD
        rw [e, e1]
        cases o with
        | some e => exact ⟨some e, rfl, h3, by simp⟩
        | none =>
          refine ⟨_, rfl, fun _ e he => ?_, by simp⟩
          rw [Option.mem_some_iff] at he
          rw [← he]
          exact fun h => h1 (htest.1 h)

/-- **C128** is violated by the cython copy: for two sites of strength `20000`, which 500 iterations do
not solve, both codes return without a warning, and the fractions of the cython copy are more than 9 %
below those of the python code, because the cython copy damps by the new elements. -/
theorem c128_violated_cython :
    ∃ X Y e f, calcXika (twoSites 20000) cyMolecules [(1 / cyMolecules, fun _ _ => 1)] = [(X, some e)] ∧
      cyXika (twoSites 20000) [(1 / cyMolecules, fun _ _ => 1)] = .ok [(Y, some f)] ∧
      ¬ e < 1 / 10 ^ 12 ∧ ¬ f < 1 / 10 ^ 12 ∧ ∀ s, Y s < 91 / 100 * X s := by
  have hcoef : coef (twoSites 20000) cyMolecules (1 / cyMolecules) (fun _ _ => 1) =
      fun s t => if s = t then 0 else ((20000 : ℕ) : ℚ) := by
    funext s t
    fin_cases s <;> fin_cases t <;> simp [coef, twoSites, Vol.at, cyMolecules]
  have hrun := iter_run 20000 500 1 2 (by norm_num) (by norm_num)
  obtain ⟨o, hcy, hf, hs⟩ := cyIter_run 20000 500 1 2 (by norm_num) (by norm_num)
  have h1 : (run 20000 500 1 2).2.2 = false := by decide +kernel
  have h2 : (cyRun 20000 500 1 2).2.2 = false := by decide +kernel
  have h3 : 0 < (run 20000 500 1 2).2.1 := by decide +kernel
  have h4 : 0 < (cyRun 20000 500 1 2).2.1 := by decide +kernel
  have h5 : (cyRun 20000 500 1 2).1 * (run 20000 500 1 2).2.1 * 100 <
      91 * (run 20000 500 1 2).1 * (cyRun 20000 500 1 2).2.1 := by decide +kernel
  have hcalc : calcXika (twoSites 20000) cyMolecules [(1 / cyMolecules, fun _ _ => 1)] =
      [iter (n := 2) (fun s t => if s = t then 0 else ((20000 : ℕ) : ℚ)) (1 / 10 ^ 12) (1 / 10) 500
        fun _ => ((1 : ℕ) : ℚ) / (2 : ℕ)] := by
    rw [calcXika, List.map_cons, List.map_nil, sweep, sweep, hcoef]
    norm_num
  have hcyX : cyXika (twoSites 20000) [(1 / cyMolecules, fun _ _ => 1)] =
      .ok [(fun _ => ((cyRun 20000 500 1 2).1 : ℚ) / (cyRun 20000 500 1 2).2.1, o)] := by
    rw [cyXika, List.map_cons, List.map_nil, cySweep, hcoef]
    rw [show (fun _ : Fin 2 => (1 : ℚ) / 2) = fun _ => ((1 : ℕ) : ℚ) / (2 : ℕ) by norm_num, hcy]
    simp only [cySweep]
  have hsome := iter_isSome (n := 2) (fun s t => if s = t then 0 else ((20000 : ℕ) : ℚ))
    (1 / 10 ^ 12) (1 / 10) 499 (fun _ => ((1 : ℕ) : ℚ) / (2 : ℕ))
  generalize iter (n := 2) (fun s t => if s = t then 0 else ((20000 : ℕ) : ℚ)) (1 / 10 ^ 12)
    (1 / 10) 500 (fun _ => ((1 : ℕ) : ℚ) / (2 : ℕ)) = r at hrun hcalc hsome
  generalize run 20000 500 1 2 = w at hrun h1 h3 h5
  generalize cyRun 20000 500 1 2 = v at hcy hcyX h2 h4 h5 hf
  obtain ⟨X, o'⟩ := r
  obtain ⟨e, rfl⟩ := Option.isSome_iff_exists.1 hsome
  obtain ⟨f, rfl⟩ := Option.isSome_iff_exists.1 (hs (by norm_num))
  refine ⟨X, _, e, f, hcalc, hcyX, hrun.2 h1 e rfl, hf h2 f rfl, fun s => ?_⟩
  rw [show X s = _ from congrFun hrun.1 s]
  have h3' : (0 : ℚ) < w.2.1 := by exact_mod_cast h3
  have h4' : (0 : ℚ) < v.2.1 := by exact_mod_cast h4
  have h5' : (v.1 : ℚ) * w.2.1 * 100 < 91 * w.1 * v.2.1 := by exact_mod_cast h5
  rw [← mul_div_assoc, div_lt_div_iff₀ h4' h3']
  linarith

/-- **C128** is violated by the cython copy: with a negative strength the new element can be negative,
then the largest element that the cython copy finds is zero, and it raises `ZeroDivisionError` where
the python code continues. -/
theorem c128_violated_raises :
    cyXika (oneSite (-4)) [(1 / cyMolecules, fun _ _ => 1)] = .error .zeroDivision ∧
      ∃ X e, calcXika (oneSite (-4)) cyMolecules [(1 / cyMolecules, fun _ _ => 1)] = [(X, some e)] := by
  have hcoef : coef (oneSite (-4)) cyMolecules (1 / cyMolecules) (fun _ _ => 1) = fun _ _ => -4 := by
    funext s t
    simp [coef, oneSite, Vol.at, cyMolecules]
  constructor
  · rw [cyXika, List.map_cons, List.map_nil, cySweep, hcoef, cyIter]
    rw [if_neg (by rintro ⟨s, h⟩; norm_num at h)]
    have e1 : rhs (n := 1) (fun _ _ => (-4 : ℚ)) (fun _ => 1 / 2) = fun _ => -1 := by
      funext s; norm_num [rhs]
    have e2 : cyTest (n := 1) (fun _ => (-1 : ℚ)) (fun _ => 1 / 2) = (3 / 2, 0) := by
      norm_num [cyTest, List.finRange_succ, abs_of_neg]
    simp only [e1, e2]
    rw [if_neg (by norm_num)]
    simp only [if_true]
  · rw [calcXika, List.map_cons, List.map_nil, sweep, sweep]
    have := iter_isSome (n := 1) (coef (oneSite (-4)) cyMolecules (1 / cyMolecules) (fun _ _ => 1))
      (1 / 10 ^ 12) (1 / 10) 499 (fun _ => (1 : ℚ) / 2)
    generalize iter (n := 1) (coef (oneSite (-4)) cyMolecules (1 / cyMolecules) (fun _ _ => 1))
      (1 / 10 ^ 12) (1 / 10) 500 (fun _ => (1 : ℚ) / 2) = r at this ⊢
    obtain ⟨X, o⟩ := r
    obtain ⟨e, rfl⟩ := Option.isSome_iff_exists.1 this
    exact ⟨X, e, rfl⟩

/-- Not vacuous: two sites of strength `6` at the density `1 / cyMolecules` meet the hypotheses of
`c128_cython_partial`. -/
example : cyXika (twoSites 6) [(1 / cyMolecules, fun _ _ => 1), (2 / cyMolecules, fun _ _ => 1)] =
    .ok (calcXika (twoSites 6) (602214086 / 10 ^ 12)
      [(1 / cyMolecules, fun _ _ => 1), (2 / cyMolecules, fun _ _ => 1)]) := by
  refine c128_cython_partial (twoSites 6) ⟨?_, ?_, ?_, ?_, ?_⟩ _ ?_ (B := 12) (by norm_num) ?_
    (by norm_num) (by norm_num)
  · intro i; simp [twoSites]
  · intro i k; simp [twoSites]
  · intro i k; simp [twoSites]
  · intro k l a b; simp only [twoSites]; split <;> norm_num
  · intro i j k l a b; simp [twoSites, Vol.at]
  · intro r hr
    simp only [List.mem_cons, List.not_mem_nil, or_false] at hr
    rcases hr with rfl | rfl <;> norm_num [cyMolecules]
  · intro r hr s
    simp only [List.mem_cons, List.not_mem_nil, or_false] at hr
    rcases hr with rfl | rfl <;> fin_cases s <;>
      norm_num [coef, twoSites, Vol.at, cyMolecules, Fin.sum_univ_two]

/-- Not vacuous: the numba copy of two sites, three densities. -/
example : (numbaXika (twoSites 6) 1 [(0, fun _ _ => 1)]).map (fun r => (r.1 0, r.1 1)) = [(1, 1)] := by
  decide +kernel

end Verif.Props
