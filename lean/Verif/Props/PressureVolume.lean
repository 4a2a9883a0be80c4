import Mathlib.Algebra.Order.Floor.Semiring
import Mathlib.Data.List.Chain
import Mathlib.Algebra.Order.Field.Basic
import Mathlib.Data.Rat.Floor
import Mathlib.Tactic.Linarith
import Mathlib.Tactic.FieldSimp
import Mathlib.Tactic.Ring
import Mathlib.Tactic.Positivity
import Verif.Model.PressureVolume

/-!
# C89, C90: the pressure-volume curve
-/

set_option linter.unusedSectionVars false

namespace Verif.Props
open Verif Verif.PressureVolume

variable {K : Type} [Field K] [LinearOrder K] [IsStrictOrderedRing K] [FloorSemiring K]

theorem arange_sorted (a b s : K) (hs : 0 < s) : (arange a b s).Pairwise (· < ·) := by
  unfold arange
  rw [List.pairwise_map]
  refine List.pairwise_lt_range.imp ?_
  intro i j hij
  have : (i : K) < j := by exact_mod_cast hij
  nlinarith [mul_lt_mul_of_pos_right this hs]

theorem arange_mem (a b s : K) (hs : 0 < s) (x : K) (hx : x ∈ arange a b s) : a ≤ x ∧ x < b := by
  unfold arange at hx
  obtain ⟨i, hi, rfl⟩ := List.mem_map.mp hx
  rw [List.mem_range, Nat.lt_ceil, lt_div_iff₀ hs] at hi
  have : (0 : K) ≤ (i : K) * s := mul_nonneg (Nat.cast_nonneg i) hs.le
  exact ⟨by linarith, by linarith⟩

theorem arange_length (a b s : K) : (arange a b s).length = ⌈(b - a) / s⌉₊ := by simp [arange]

theorem arange_get (a b s : K) (i : ℕ) (x : K) (h : (arange a b s)[i]? = some x) : x = a + i * s := by
  unfold arange at h
  rw [List.getElem?_map] at h
  cases hr : (List.range ⌈(b - a) / s⌉₊)[i]? with
  | none => rw [hr] at h; cases h
  | some j =>
    rw [hr] at h
    rw [List.getElem?_eq_some_iff] at hr
    obtain ⟨_, hj⟩ := hr
    rw [List.getElem_range] at hj
    cases h; rw [hj]

/-- The last grid point lies within one step of the end. -/
theorem arange_last (a b s : K) (hs : 0 < s) (x : K) (h : (arange a b s).getLast? = some x) :
    b - s ≤ x ∧ x < b := by
  rw [List.getLast?_eq_getElem?, arange_length] at h
  have hx := arange_get a b s _ x h
  have hm := arange_mem a b s hs x (List.mem_of_getElem? h)
  refine ⟨?_, hm.2⟩
  have hc : 0 < ⌈(b - a) / s⌉₊ := by
    by_contra hcon
    have : (arange a b s) = [] := List.length_eq_zero_iff.mp (by rw [arange_length]; omega)
    rw [this] at h; cases h
  have hle := Nat.le_ceil ((b - a) / s)
  have hcast : ((⌈(b - a) / s⌉₊ - 1 : ℕ) : K) = (⌈(b - a) / s⌉₊ : K) - 1 := by
    rw [Nat.cast_sub hc, Nat.cast_one]
  rw [hx, hcast]
  rw [div_le_iff₀ hs] at hle
  linarith

/-- A list of densities as the calculations need it. -/
def GoodDensities (r : List K) : Prop := r.Pairwise (· < ·) ∧ (∀ x ∈ r, 0 < x) ∧ 2 ≤ r.length

theorem whereBig_mem (dv : K) (vs : List K) (k : ℕ) :
    k ∈ whereBig dv vs ↔ ∃ x, vs[k]? = some x ∧ dv < x := by
  simp only [whereBig, List.mem_map, List.mem_filter, Prod.exists, decide_eq_true_eq,
    exists_eq_right, List.mk_mem_zipIdx_iff_getElem?]

theorem whereBig_sorted (dv : K) (vs : List K) : (whereBig dv vs).Pairwise (· < ·) := by
  unfold whereBig
  rw [List.pairwise_map]
  refine List.Pairwise.filter _ ?_
  have h := List.pairwise_lt_range' (s := 0) (n := vs.length) (step := 1)
  rw [← List.zipIdx_map_snd 0 vs, List.pairwise_map] at h
  exact h

theorem vspace_get (r : List K) (k : ℕ) (x : K) :
    (vspace r)[k]? = some x ↔ ∃ a b, r[k]? = some a ∧ r[k + 1]? = some b ∧ x = 1 / a - 1 / b := by
  unfold vspace
  rw [List.getElem?_zipWith_eq_some]
  constructor
  · rintro ⟨a, b, h1, h2, rfl⟩
    rw [List.getElem?_tail] at h2
    exact ⟨a, b, h1, h2, rfl⟩
  · rintro ⟨a, b, h1, h2, rfl⟩
    exact ⟨a, b, h1, by rw [List.getElem?_tail]; exact h2, rfl⟩

/-- Consecutive specific volumes (of increasing densities) differ by at most `dv`. -/
def SmallSteps (dv : K) (r : List K) : Prop := r.IsChain fun a b => 1 / a - 1 / b ≤ dv

theorem smallSteps_iff (dv : K) (r : List K) :
    SmallSteps dv r ↔ ∀ (k : ℕ) (a b : K), r[k]? = some a → r[k + 1]? = some b → 1 / a - 1 / b ≤ dv := by
  unfold SmallSteps
  rw [List.isChain_iff_getElem]
  constructor
  · intro h k a b ha hb
    obtain ⟨h1, rfl⟩ := List.getElem?_eq_some_iff.mp hb
    obtain ⟨h0, rfl⟩ := List.getElem?_eq_some_iff.mp ha
    exact h k h1
  · intro h k hk
    exact h k _ _ (List.getElem?_eq_getElem (by omega)) (List.getElem?_eq_getElem hk)

theorem inv_arange_sorted (a b s : K) (ha : 0 < a) (hs : 0 < s) :
    ((arange a b s).reverse.map (1 / ·)).Pairwise (· < ·) := by
  rw [List.pairwise_map, List.pairwise_reverse]
  refine (arange_sorted a b s hs).imp_of_mem ?_
  intro x y hx hy hxy
  have h1 := (arange_mem a b s hs x hx).1
  exact one_div_lt_one_div_of_lt (by linarith) hxy

theorem inv_arange_steps (a b s : K) :
    SmallSteps s ((arange a b s).reverse.map (1 / ·)) := by
  unfold SmallSteps
  rw [List.isChain_map, List.isChain_reverse, List.isChain_iff_getElem]
  intro i hi
  have e0 := arange_get a b s i _ (List.getElem?_eq_getElem (by omega))
  have e1 := arange_get a b s (i + 1) _ (List.getElem?_eq_getElem hi)
  rw [e0, e1]
  simp only [one_div_one_div]
  push_cast
  linarith

theorem regrid_spec (minrho dv : K) (hm : 0 < minrho) (hdv : 0 < dv) (r r' : List K)
    (hr : r.Pairwise (· < ·)) (h0 : r.head? = some minrho) (h : regrid minrho dv r = .ok r') :
    GoodDensities r' ∧ r'.getLast? = r.getLast? ∧ SmallSteps dv r' ∧
      ∃ q, r'.head? = some q ∧ minrho ≤ q ∧ 1 / minrho - 1 / q ≤ dv := by
  have hge : ∀ x ∈ r, minrho ≤ x := by
    cases r with
    | nil => simp
    | cons y t =>
      simp only [List.head?_cons, Option.some.injEq] at h0
      subst h0
      intro x hx
      rcases List.mem_cons.mp hx with rfl | hx
      · exact le_rfl
      · exact ((List.pairwise_cons.mp hr).1 x hx).le
  have hpos : ∀ x ∈ r, 0 < x := fun x hx => lt_of_lt_of_le hm (hge x hx)
  unfold regrid at h
  split at h
  · cases h
  rename_i hne
  cases hl : (whereBig dv (vspace r)).getLast? with
  | none =>
    simp only [hl] at h
    cases h
    have hempty : whereBig dv (vspace r) = [] := List.getLast?_eq_none_iff.mp hl
    refine ⟨⟨hr, hpos, ?_⟩, rfl, ?_, minrho, h0, le_rfl, by linarith⟩
    · match r, hne with
      | [], hne => simp [vspace] at hne
      | [x], hne => simp [vspace] at hne
      | x :: y :: t, _ => simp
    · rw [smallSteps_iff]
      intro k a b ha hb
      by_contra hcon
      have hk : k ∈ whereBig dv (vspace r) :=
        (whereBig_mem dv _ k).mpr ⟨1 / a - 1 / b, (vspace_get r k _).mpr ⟨a, b, ha, hb, rfl⟩, by
          exact not_le.mp hcon⟩
      rw [hempty] at hk; cases hk
  | some k =>
    simp only [hl] at h
    have hkm : k ∈ whereBig dv (vspace r) := List.mem_of_getLast? hl
    obtain ⟨x, hx, hdx⟩ := (whereBig_mem dv _ k).mp hkm
    obtain ⟨a, q, ha, hq, rfl⟩ := (vspace_get r k x).mp hx
    simp only [hq] at h
    injection h with h
    obtain ⟨hklt, hqe⟩ := List.getElem?_eq_some_iff.mp hq
    have hamem := List.mem_of_getElem? ha
    have hqmem := List.mem_of_getElem? hq
    have hqpos := hpos q hqmem
    have hmax : ∀ j, k < j → j ∉ whereBig dv (vspace r) := by
      intro j hj hjm
      have hs := whereBig_sorted dv (vspace r)
      obtain ⟨l, hl'⟩ := List.getLast?_eq_some_iff.mp hl
      rw [hl'] at hs hjm
      rcases List.mem_append.mp hjm with h1 | h1
      · have := (List.pairwise_append.mp hs).2.2 j h1 k (by simp); omega
      · simp at h1; omega
    have hsmall : ∀ (j : ℕ) (u w : K), k < j → r[j]? = some u → r[j + 1]? = some w →
        1 / u - 1 / w ≤ dv := by
      intro j u w hj hu hw
      by_contra hcon
      exact hmax j hj ((whereBig_mem dv _ j).mpr
        ⟨1 / u - 1 / w, (vspace_get r j _).mpr ⟨u, w, hu, hw, rfl⟩, not_le.mp hcon⟩)
    have hqinv : 0 < 1 / q := one_div_pos.mpr hqpos
    have hwide : dv < 1 / minrho - 1 / q := by
      have : 1 / a ≤ 1 / minrho := one_div_le_one_div_of_le hm (hge a hamem)
      linarith
    have hlen2 : 2 ≤ (arange (1 / q) (1 / minrho) dv).length := by
      rw [arange_length]
      have : (1 : ℕ) < ⌈(1 / minrho - 1 / q) / dv⌉₊ := by
        rw [Nat.lt_ceil, lt_div_iff₀ hdv]; simpa using hwide
      exact this
    have hAmem := fun v hv => arange_mem (1 / q) (1 / minrho) dv hdv v hv
    have hdropgt : ∀ y ∈ r.drop (k + 2), q < y := by
      intro y hy
      have e := List.take_append_drop (k + 2) r
      rw [← e] at hr
      refine (List.pairwise_append.mp hr).2.2 q ?_ y hy
      rw [List.mem_take_iff_getElem]
      exact ⟨k + 1, by omega, hqe⟩
    -- the first part
    have hcons : ∃ A', arange (1 / q) (1 / minrho) dv = 1 / q :: A' := by
      cases hA : arange (1 / q) (1 / minrho) dv with
      | nil => rw [hA] at hlen2; simp at hlen2
      | cons v A' =>
        have := arange_get (1 / q) (1 / minrho) dv 0 v (by rw [hA]; rfl)
        simp only [Nat.cast_zero, zero_mul, add_zero] at this
        exact ⟨A', by rw [this]⟩
    obtain ⟨A', hA'⟩ := hcons
    have hfirstlast : ((arange (1 / q) (1 / minrho) dv).reverse.map (1 / ·)).getLast? = some q := by
      rw [hA']; simp
    have hlastdrop : r'.getLast? = r.getLast? := by
      rw [← h]
      by_cases hd : r.drop (k + 2) = []
      · rw [hd, List.append_nil, hfirstlast]
        have hlen : r.length = k + 2 := by
          have := List.drop_eq_nil_iff.mp hd; omega
        rw [List.getLast?_eq_getElem?, hlen]
        exact hq.symm
      · rw [List.getLast?_append_of_ne_nil _ hd, List.getLast?_drop, if_neg]
        intro hcon; exact hd (List.drop_eq_nil_of_le hcon)
    refine ⟨⟨?_, ?_, ?_⟩, hlastdrop, ?_, ?_⟩
    · rw [← h, List.pairwise_append]
      refine ⟨inv_arange_sorted _ _ _ hqinv hdv, hr.sublist (List.drop_sublist _ _), ?_⟩
      intro x hx y hy
      obtain ⟨v, hv, rfl⟩ := List.mem_map.mp hx
      have := (hAmem v (List.mem_reverse.mp hv)).1
      have h1 : 1 / v ≤ q := by
        have := one_div_le_one_div_of_le hqinv this
        simpa using this
      exact lt_of_le_of_lt h1 (hdropgt y hy)
    · intro x hx
      rw [← h] at hx
      rcases List.mem_append.mp hx with hx | hx
      · obtain ⟨v, hv, rfl⟩ := List.mem_map.mp hx
        have := (hAmem v (List.mem_reverse.mp hv)).1
        exact one_div_pos.mpr (lt_of_lt_of_le hqinv this)
      · exact hpos x (List.mem_of_mem_drop hx)
    · rw [← h]; simp only [List.length_append, List.length_map, List.length_reverse]; omega
    · rw [← h]
      unfold SmallSteps
      rw [List.isChain_append]
      refine ⟨inv_arange_steps _ _ _, ?_, ?_⟩
      · have := (smallSteps_iff dv (r.drop (k + 2))).mpr (by
          intro j u w hu hw
          rw [List.getElem?_drop] at hu hw
          exact hsmall (k + 2 + j) u w (by omega) hu (by rw [← hw]; congr 1))
        exact this
      · intro x hx y hy
        rw [hfirstlast] at hx
        cases hx
        rw [Option.mem_def, List.head?_drop] at hy
        exact hsmall (k + 1) q y (by omega) hq hy
    · cases hlast : (arange (1 / q) (1 / minrho) dv).getLast? with
      | none => rw [hA'] at hlast; simp at hlast
      | some v =>
        obtain ⟨b1, b2⟩ := arange_last (1 / q) (1 / minrho) dv hdv v hlast
        have hv := (hAmem v (List.mem_of_getLast? hlast)).1
        have hvpos : 0 < v := lt_of_lt_of_le hqinv hv
        refine ⟨1 / v, ?_, ?_, ?_⟩
        · rw [← h, List.head?_append, List.head?_map, List.head?_reverse, hlast]
          rfl
        · have := one_div_le_one_div_of_le hvpos b2.le
          simpa using this
        · rw [one_div_one_div]; linarith

theorem base_spec (o : Opts K) (rmax : K) (hr : 0 < rmax) (hf : 0 < o.minFrac) (hi : 0 < o.inc)
    (hdv : 0 < o.dv) (r : List K) (h : base o rmax = .ok r) :
    GoodDensities r ∧ SmallSteps o.dv r ∧
      (∃ q, r.head? = some q ∧ rmax * o.minFrac ≤ q ∧ 1 / (rmax * o.minFrac) - 1 / q ≤ o.dv) ∧
      ∃ q, r.getLast? = some q ∧ rmax - o.inc ≤ q ∧ q < rmax := by
  unfold base at h
  split at h
  · cases h
  split at h
  · cases h
  rename_i hrange
  cases hg : regrid (rmax * o.minFrac) o.dv (arange (rmax * o.minFrac) rmax o.inc) with
  | error e => simp only [hg] at h; cases h
  | ok r1 =>
    simp only [hg] at h
    split at h
    · cases h
    injection h with h
    subst h
    have hm : 0 < rmax * o.minFrac := mul_pos hr hf
    have hlen : 0 < (arange (rmax * o.minFrac) rmax o.inc).length := by
      rw [arange_length, Nat.ceil_pos]
      exact div_pos (by linarith [not_lt.mp hrange]) hi
    have hhead : (arange (rmax * o.minFrac) rmax o.inc).head? = some (rmax * o.minFrac) := by
      rw [List.head?_eq_getElem?, List.getElem?_eq_getElem hlen]
      have := arange_get _ _ _ 0 _ (List.getElem?_eq_getElem hlen)
      rw [this]; simp
    obtain ⟨g1, g2, g3, g4⟩ := regrid_spec _ _ hm hdv _ _ (arange_sorted _ _ _ hi) hhead hg
    refine ⟨g1, g3, g4, ?_⟩
    cases hl : (arange (rmax * o.minFrac) rmax o.inc).getLast? with
    | none => rw [List.getLast?_eq_none_iff] at hl; rw [hl] at hlen; simp at hlen
    | some q =>
      obtain ⟨b1, b2⟩ := arange_last _ _ _ hi q hl
      exact ⟨q, by rw [g2, hl], b1, b2⟩

omit [FloorSemiring K] in
theorem extendOnce_spec (npts : ℕ) (q : K) (r : List K) (h : GoodDensities (q :: r)) :
    GoodDensities (extendOnce npts (q :: r)) ∧
      (∃ e, extendOnce npts (q :: r) = e ++ q :: r) ∧
      (2 ≤ npts → (extendOnce npts (q :: r)).head? = some (q / 2)) := by
  obtain ⟨h1, h2, h3⟩ := h
  have hq : 0 < q := h2 q (by simp)
  set st : K := (q - q / 2) / ((npts : K) - 1) with hst
  have hfact : ∀ i ∈ List.range (npts - 1), q / 2 ≤ q / 2 + (i : K) * st ∧ q / 2 + (i : K) * st < q ∧
      0 < st := by
    intro i hi
    rw [List.mem_range] at hi
    have hn : (1 : K) < npts := by exact_mod_cast (by omega : 1 < npts)
    have hin : (i : K) < (npts : K) - 1 := by
      have : ((i + 1 : ℕ) : K) < npts := by exact_mod_cast (by omega : i + 1 < npts)
      push_cast at this; linarith
    have hstpos : 0 < st := div_pos (by linarith) (by linarith)
    have e : ((npts : K) - 1) * st = q / 2 := by
      have hne : (npts : K) - 1 ≠ 0 := by linarith
      rw [hst, mul_div_cancel₀ _ hne]; ring
    have := mul_lt_mul_of_pos_right hin hstpos
    refine ⟨?_, by linarith, hstpos⟩
    have := mul_nonneg (Nat.cast_nonneg (α := K) i) hstpos.le
    linarith
  refine ⟨⟨?_, ?_, ?_⟩, ⟨_, rfl⟩, ?_⟩
  · unfold extendOnce
    rw [List.pairwise_append]
    refine ⟨?_, h1, ?_⟩
    · rw [List.pairwise_map]
      refine List.pairwise_lt_range.imp_of_mem ?_
      intro i j hi hj hij
      have : (i : K) < j := by exact_mod_cast hij
      have := mul_lt_mul_of_pos_right this (hfact i hi).2.2
      linarith
    · intro x hx y hy
      obtain ⟨i, hi, rfl⟩ := List.mem_map.mp hx
      have hx' := (hfact i hi).2.1
      rcases List.mem_cons.mp hy with rfl | hy
      · exact hx'
      · exact lt_trans hx' ((List.pairwise_cons.mp h1).1 y hy)
  · intro x hx
    unfold extendOnce at hx
    rcases List.mem_append.mp hx with hx | hx
    · obtain ⟨i, hi, rfl⟩ := List.mem_map.mp hx
      have := (hfact i hi).1
      linarith
    · exact h2 x hx
  · unfold extendOnce
    rw [List.length_append]
    omega
  · intro hn
    obtain ⟨k, rfl⟩ : ∃ k, npts = k + 2 := ⟨npts - 2, by omega⟩
    simp [extendOnce, List.range_succ_eq_map]

omit [FloorSemiring K] in
theorem extend_spec (P : K → K) (pmin : K) (npts n : ℕ) (r : List K) (h : GoodDensities r) :
    GoodDensities (extend P pmin npts n r) ∧ (∃ e, extend P pmin npts n r = e ++ r) ∧
      ((∀ q, r.head? = some q → P q ≤ pmin) → extend P pmin npts n r = r) := by
  induction n generalizing r with
  | zero => exact ⟨h, ⟨[], rfl⟩, fun _ => rfl⟩
  | succ n ih =>
    cases r with
    | nil => exact absurd h.2.2 (by simp)
    | cons q r =>
      simp only [extend]
      split
      · rename_i hP
        obtain ⟨o1, ⟨e1, o2⟩, _⟩ := extendOnce_spec npts q r h
        obtain ⟨i1, ⟨e2, i2⟩, _⟩ := ih _ o1
        refine ⟨i1, ⟨e2 ++ e1, by rw [i2, o2, List.append_assoc]⟩, ?_⟩
        intro hh
        exact absurd hP (not_lt.mpr (hh q rfl))
      · exact ⟨h, ⟨[], rfl⟩, fun _ => rfl⟩

/-- The maximum density is the one given, or that of the equation of state when none or zero is given. -/
theorem c89_maximum (eosMax m : K) (hm : m ≠ 0) :
    chosenMax none eosMax = eosMax ∧ chosenMax (some 0) eosMax = eosMax ∧ chosenMax (some m) eosMax = m := by
  simp [chosenMax, hm]

/-- **C89.** The specific volumes are positive and strictly increasing, there are at least two of them,
each pressure is that of the equation of state at the density of its volume, and the densest point lies
within one increment below the maximum density. -/
theorem c89_curve (P : K → K) (o : Opts K) (given : Option K) (eosMax : K)
    (hr : 0 < chosenMax given eosMax) (hf : 0 < o.minFrac) (hi : 0 < o.inc) (hdv : 0 < o.dv)
    (vs ps : List K) (h : arrays P o given eosMax = .ok (vs, ps)) :
    vs.Pairwise (· < ·) ∧ (∀ v ∈ vs, 0 < v) ∧ 2 ≤ vs.length ∧ ps = vs.map (fun v => P (1 / v)) ∧
      ∃ v, vs.head? = some v ∧ chosenMax given eosMax - o.inc ≤ 1 / v ∧
        1 / v < chosenMax given eosMax := by
  unfold arrays at h
  cases hb : base o (chosenMax given eosMax) with
  | error e => simp only [hb] at h; cases h
  | ok r =>
    simp only [hb] at h
    injection h with h
    obtain ⟨rfl, rfl⟩ := Prod.mk.injEq .. ▸ h
    obtain ⟨g1, _, _, q, hl, l1, l2⟩ := base_spec o _ hr hf hi hdv r hb
    obtain ⟨⟨e1, e2, e3⟩, ⟨e, he⟩, _⟩ := extend_spec P o.pmin o.npts o.maxiter r g1
    refine ⟨?_, ?_, ?_, ?_, ?_⟩
    · rw [List.pairwise_map, List.pairwise_reverse]
      refine e1.imp_of_mem ?_
      intro a b ha hb hab
      exact one_div_lt_one_div_of_lt (e2 a ha) hab
    · intro v hv
      obtain ⟨x, hx, rfl⟩ := List.mem_map.mp hv
      exact one_div_pos.mpr (e2 x (List.mem_reverse.mp hx))
    · simpa using e3
    · simp [Function.comp_def]
    · refine ⟨1 / q, ?_, by rw [one_div_one_div]; exact l1, by rw [one_div_one_div]; exact l2⟩
      rw [List.head?_map, List.head?_reverse, he,
        List.getLast?_append_of_ne_nil _ (by rintro rfl; simp at hl), hl]
      rfl

/-- **C89, failures.** The only exception is `ValueError`. -/
theorem c89_errors (P : K → K) (o : Opts K) (given : Option K) (eosMax : K) (e : PyErr)
    (h : arrays P o given eosMax = .error e) : e = .valueError := by
  unfold arrays at h
  cases hb : base o (chosenMax given eosMax) with
  | ok r => simp only [hb] at h; cases h
  | error e' =>
    simp only [hb] at h
    injection h with h
    subst h
    unfold base at hb
    split at hb
    · injection hb with hb; exact hb.symm
    split at hb
    · injection hb with hb; exact hb.symm
    cases hg : regrid (chosenMax given eosMax * o.minFrac) o.dv
        (arange (chosenMax given eosMax * o.minFrac) (chosenMax given eosMax) o.inc) with
    | ok r1 =>
      simp only [hg] at hb
      split at hb
      · injection hb with hb; exact hb.symm
      · cases hb
    | error e' =>
      simp only [hg] at hb
      injection hb with hb
      subst hb
      unfold regrid at hg
      split at hg
      · injection hg with hg; exact hg.symm
      · split at hg
        · cases hg
        · rename_i k hk
          obtain ⟨x, hx, _⟩ := (whereBig_mem _ _ _).mp (List.mem_of_getLast? hk)
          obtain ⟨a, b, _, hq, _⟩ := (vspace_get _ _ _).mp hx
          simp only [hq] at hg
          cases hg

/-- **C89, no failure.** With a maximum density below `10⁵`, a range wider than the increment and few
enough points the arrays are computed. -/
theorem c89_defined (P : K → K) (o : Opts K) (given : Option K) (eosMax : K)
    (hle : chosenMax given eosMax ≤ 100000)
    (hrange : o.inc < chosenMax given eosMax - chosenMax given eosMax * o.minFrac) (hi : 0 < o.inc)
    (hr : 0 < chosenMax given eosMax) (hf : 0 < o.minFrac) (hdv : 0 < o.dv)
    (hlen : ⌈1 / (chosenMax given eosMax * o.minFrac) / o.dv⌉₊ + ⌈chosenMax given eosMax / o.inc⌉₊
      ≤ o.maxLen) :
    ∃ vs ps, arrays P o given eosMax = .ok (vs, ps) := by
  set rmax := chosenMax given eosMax with hrm
  have hm : 0 < rmax * o.minFrac := mul_pos hr hf
  set r := arange (rmax * o.minFrac) rmax o.inc with hrdef
  have hrlen : r.length ≤ ⌈rmax / o.inc⌉₊ := by
    rw [hrdef, arange_length]
    refine Nat.ceil_mono ?_
    exact div_le_div_of_nonneg_right (by linarith) hi.le
  have hr2 : 2 ≤ r.length := by
    rw [hrdef, arange_length]
    have : (1 : ℕ) < ⌈(rmax - rmax * o.minFrac) / o.inc⌉₊ := by
      rw [Nat.lt_ceil, lt_div_iff₀ hi]; simpa using hrange
    exact this
  have hg : ∃ r1, regrid (rmax * o.minFrac) o.dv r = .ok r1 ∧ r1.length ≤ o.maxLen := by
    unfold regrid
    rw [if_neg]
    · split
      · exact ⟨_, rfl, by omega⟩
      · rename_i k hk
        obtain ⟨x, hx, _⟩ := (whereBig_mem _ _ _).mp (List.mem_of_getLast? hk)
        obtain ⟨a, b, _, hq, _⟩ := (vspace_get _ _ _).mp hx
        simp only [hq]
        refine ⟨_, rfl, ?_⟩
        have hbm := arange_mem _ _ _ hi b (hrdef ▸ List.mem_of_getElem? hq)
        have hbpos : 0 < b := by linarith [hbm.1]
        have hA : (arange (1 / b) (1 / (rmax * o.minFrac)) o.dv).length ≤
            ⌈1 / (rmax * o.minFrac) / o.dv⌉₊ := by
          rw [arange_length]
          refine Nat.ceil_mono ?_
          have := one_div_pos.mpr hbpos
          exact div_le_div_of_nonneg_right (by linarith) hdv.le
        simp only [List.length_append, List.length_map, List.length_reverse, List.length_drop]
        omega
    · intro hcon
      have : (vspace r).length = 0 := by
        rw [List.isEmpty_iff] at hcon; rw [hcon]; rfl
      simp only [vspace, List.length_zipWith, List.length_tail] at this
      omega
  obtain ⟨r1, h1, h2⟩ := hg
  have hb : base o rmax = .ok r1 := by
    unfold base
    rw [if_neg (not_lt.mpr hle), if_neg (by linarith)]
    simp only [← hrdef, h1]
    rw [if_neg (by omega)]
  exact ⟨_, _, by unfold arrays; rw [hb]⟩

/-- **C90, step size, partial.** If the pressure at the lowest density of the grid is low enough, no step
of the volume exceeds `max_volume_increment`, and the largest volume is that of the minimum density up to
one such step. -/
theorem c90_steps_partial (P : K → K) (o : Opts K) (given : Option K) (eosMax : K)
    (hr : 0 < chosenMax given eosMax) (hf : 0 < o.minFrac) (hi : 0 < o.inc) (hdv : 0 < o.dv)
    (hlow : ∀ ρ, chosenMax given eosMax * o.minFrac ≤ ρ →
      1 / (chosenMax given eosMax * o.minFrac) - 1 / ρ ≤ o.dv → P ρ ≤ o.pmin)
    (vs ps : List K) (h : arrays P o given eosMax = .ok (vs, ps)) :
    vs.IsChain (fun a b => b - a ≤ o.dv) ∧
      ∃ v, vs.getLast? = some v ∧ 1 / (chosenMax given eosMax * o.minFrac) - o.dv ≤ v ∧
        v ≤ 1 / (chosenMax given eosMax * o.minFrac) := by
  unfold arrays at h
  cases hb : base o (chosenMax given eosMax) with
  | error e => simp only [hb] at h; cases h
  | ok r =>
    simp only [hb] at h
    injection h with h
    obtain ⟨rfl, rfl⟩ := Prod.mk.injEq .. ▸ h
    obtain ⟨g1, g2, ⟨q, hq, q1, q2⟩, _⟩ := base_spec o _ hr hf hi hdv r hb
    have hext := (extend_spec P o.pmin o.npts o.maxiter r g1).2.2 (by
      intro q' hq'
      rw [hq] at hq'; cases hq'
      exact hlow q q1 q2)
    rw [hext]
    constructor
    · rw [List.isChain_map, List.isChain_reverse]
      exact g2
    · refine ⟨1 / q, ?_, by linarith, one_div_le_one_div_of_le (mul_pos hr hf) q1⟩
      rw [List.getLast?_map, List.getLast?_reverse, hq]; rfl

omit [FloorSemiring K] in
theorem extend_reaches (P : K → K) (pmin c : K) (npts n : ℕ) (hn : 2 ≤ npts)
    (hP : ∀ ρ, 0 < ρ → P ρ ≤ c * ρ) (r : List K) (h : GoodDensities r) (q : K)
    (hq : r.head? = some q) (hc : c * q ≤ pmin * 2 ^ n) :
    ∃ q', (extend P pmin npts n r).head? = some q' ∧ P q' ≤ pmin := by
  induction n generalizing r q with
  | zero =>
    refine ⟨q, hq, le_trans (hP q (h.2.1 q (List.mem_of_head? hq))) (by simpa using hc)⟩
  | succ n ih =>
    cases r with
    | nil => cases hq
    | cons y r =>
      simp only [List.head?_cons, Option.some.injEq] at hq
      subst hq
      simp only [extend]
      split
      · obtain ⟨o1, _, o2⟩ := extendOnce_spec npts y r h
        refine ih _ o1 (y / 2) (o2 hn) ?_
        rw [pow_succ] at hc
        linarith
      · rename_i hP'
        exact ⟨y, rfl, not_lt.mp hP'⟩

/-- **C90, low pressures, partial.** If the pressure is at most proportional to the density with a factor
that `maxiter` halvings bring below the wanted pressure, and the extension has at least two points, the
curve reaches the wanted pressure at its largest volume. -/
theorem c90_low_pressure_partial (P : K → K) (o : Opts K) (given : Option K) (eosMax c : K)
    (hr : 0 < chosenMax given eosMax) (hf : 0 < o.minFrac) (hi : 0 < o.inc) (hdv : 0 < o.dv)
    (hn : 2 ≤ o.npts) (hc : 0 ≤ c) (hP : ∀ ρ, 0 < ρ → P ρ ≤ c * ρ)
    (hm : c * chosenMax given eosMax ≤ o.pmin * 2 ^ o.maxiter)
    (vs ps : List K) (h : arrays P o given eosMax = .ok (vs, ps)) :
    ∃ p, ps.getLast? = some p ∧ p ≤ o.pmin := by
  unfold arrays at h
  cases hb : base o (chosenMax given eosMax) with
  | error e => simp only [hb] at h; cases h
  | ok r =>
    simp only [hb] at h
    injection h with h
    obtain ⟨rfl, rfl⟩ := Prod.mk.injEq .. ▸ h
    obtain ⟨g1, _, ⟨q, hq, _, _⟩, ql, hl, _, l2⟩ := base_spec o _ hr hf hi hdv r hb
    have hqle : q ≤ chosenMax given eosMax := by
      have hqm := List.mem_of_head? hq
      obtain ⟨l, hl'⟩ := List.getLast?_eq_some_iff.mp hl
      have hs := g1.1
      rw [hl'] at hqm hs
      rcases List.mem_append.mp hqm with h1 | h1
      · have := (List.pairwise_append.mp hs).2.2 q h1 ql (by simp); linarith
      · simp at h1; rw [h1]; exact l2.le
    obtain ⟨q', hq', hp⟩ := extend_reaches P o.pmin c o.npts o.maxiter hn hP r g1 q hq
      (le_trans (mul_le_mul_of_nonneg_left hqle hc) hm)
    exact ⟨P q', by rw [List.getLast?_map, List.getLast?_reverse, hq']; rfl, hp⟩

/-- A small example: maximum density 10, ideal gas with `RT = 1`. -/
def pvOpts : Opts ℚ :=
  { minFrac := 1/10, inc := 3, dv := 1/4, pmin := 2, maxiter := 5, multfactor := 2, npts := 3, maxLen := 100 }

example : arrays (fun ρ => ρ) pvOpts none 10 =
    .ok ([1/7, 1/4, 1/2, 3/4], [7, 4, 2, 4/3]) := by decide +kernel
example : 0 < chosenMax none (10 : ℚ) ∧ 0 < pvOpts.minFrac ∧ 0 < pvOpts.inc ∧ 0 < pvOpts.dv := by
  decide +kernel
/-- The hypotheses of `c89_defined` and `c90_low_pressure_partial` hold here. -/
example : chosenMax none (10 : ℚ) ≤ 100000 ∧
    pvOpts.inc < chosenMax none 10 - chosenMax none 10 * pvOpts.minFrac ∧
    ⌈1 / (chosenMax none 10 * pvOpts.minFrac) / pvOpts.dv⌉₊ + ⌈chosenMax none 10 / pvOpts.inc⌉₊
      ≤ pvOpts.maxLen ∧ 2 ≤ pvOpts.npts ∧ 1 * chosenMax none 10 ≤ pvOpts.pmin * 2 ^ pvOpts.maxiter := by
  decide +kernel
/-- The range that the extension adds. -/
example : arrays (fun ρ => ρ) { pvOpts with pmin := 1 } none 10 =
    .ok ([1/7, 1/4, 1/2, 3/4, 1, 3/2], [7, 4, 2, 4/3, 1, 2/3]) := by decide +kernel

/-- **C90, violated.** The smallest density of the array is not the requested fraction of the maximum
density (here 1), because the grid in the volume stops before it. -/
theorem c90_violated_min_density :
    (arrays (fun ρ => ρ) pvOpts none 10).map (fun a => a.1.map (1 / ·)) = .ok [7, 4, 2, 4/3] ∧
    chosenMax none 10 * pvOpts.minFrac = 1 := by decide +kernel

/-- **C90, violated.** The extension to low pressures makes steps of the volume larger than
`max_volume_increment`. -/
theorem c90_violated_increment :
    (arrays (fun ρ => ρ) { pvOpts with pmin := 1/2 } none 10).map (fun a => vspace (a.1.map (1 / ·)).reverse)
      = .ok [1, 1/2, 1/2, 1/4, 1/4, 1/4, 3/28] := by decide +kernel

/-- **C90, violated.** With one point in the extension the wanted pressure is never reached. -/
theorem c90_violated_one_point :
    (arrays (fun ρ => ρ) { pvOpts with pmin := 1, npts := 1 } none 10).map (·.2) = .ok [7, 4, 2, 4/3] := by
  decide +kernel

omit [IsStrictOrderedRing K] in
/-- **C90, violated.** The documented factor by which the range is extended has no effect. -/
theorem c90_violated_multfactor (P : K → K) (o : Opts K) (given : Option K) (eosMax m : K) :
    arrays P { o with multfactor := m } given eosMax = arrays P o given eosMax := rfl

end Verif.Props
