import Verif.Model.IsothermOptions
import Verif.Props.PressureVolume
import Verif.Props.SaftToolbox
import Mathlib.Analysis.Real.Pi.Bounds
import Mathlib.Tactic.FinCases
import Mathlib.Tactic.Linarith
import Mathlib.Tactic.NormNum
import Mathlib.Tactic.Positivity

/-! # C179: which fluids have an isotherm -/

namespace Verif.Props
open Verif Verif.PressureVolume

/-- **C179** (long arrays): when the volume at the lowest density is larger than the step of the volume times the allowed number of
points, plus the inverse of the increment, no isotherm is computed, whatever the equation of state. -/
theorem c179_long (P : ℝ → ℝ) (o : Opts ℝ) (rmax : ℝ) (hr : 0 < rmax) (hf : 0 < o.minFrac) (hi : 0 < o.inc) (hdv : 0 < o.dv)
    (hn : 1 ≤ o.maxLen) (h : o.dv * o.maxLen + 1 / o.inc < 1 / (rmax * o.minFrac)) :
    arrays P o none rmax = .error .valueError := by
  have hlow : 0 < rmax * o.minFrac := mul_pos hr hf
  have hb : ∃ e, base o rmax = .error e := by
    unfold base
    by_cases h1 : rmax > 100000
    · exact ⟨_, if_pos h1⟩
    rw [if_neg h1]
    by_cases h2 : rmax - rmax * o.minFrac < o.inc
    · exact ⟨_, if_pos h2⟩
    rw [if_neg h2]
    rcases hreg : regrid (rmax * o.minFrac) o.dv (arange (rmax * o.minFrac) rmax o.inc) with e | r
    · exact ⟨e, rfl⟩
    refine ⟨.valueError, if_pos ?_⟩
    unfold regrid at hreg
    by_cases h3 : (vspace (arange (rmax * o.minFrac) rmax o.inc)).isEmpty = true
    · rw [if_pos h3] at hreg; cases hreg
    rw [if_neg h3] at hreg
    rcases hlast : (whereBig o.dv (vspace (arange (rmax * o.minFrac) rmax o.inc))).getLast? with _ | k
    · exfalso
      rw [List.getLast?_eq_none_iff] at hlast
      -- the first step is large
      rcases hv : vspace (arange (rmax * o.minFrac) rmax o.inc) with _ | ⟨v, vs⟩
      · rw [hv] at h3; exact h3 rfl
      have hv0 : v = 1 / (rmax * o.minFrac) - 1 / (rmax * o.minFrac + o.inc) := by
        unfold vspace arange at hv
        generalize ⌈(rmax - rmax * o.minFrac) / o.inc⌉₊ = N at hv
        match N, hv with
        | 0, hv => simp at hv
        | 1, hv => simp at hv
        | N + 2, hv =>
          rw [List.range_succ_eq_map, List.range_succ_eq_map] at hv
          simp at hv
          rw [← hv.1]
          simp
      have hbig : o.dv < v := by
        have h4 : 1 / (rmax * o.minFrac + o.inc) ≤ 1 / o.inc := one_div_le_one_div_of_le hi (by linarith)
        have h5 : o.dv ≤ o.dv * o.maxLen := le_mul_of_one_le_right hdv.le (by exact_mod_cast hn)
        rw [hv0]
        linarith
      rw [hv] at hlast
      simp [whereBig, hbig] at hlast
    · rw [hlast] at hreg
      rcases hq : (arange (rmax * o.minFrac) rmax o.inc)[k + 1]? with _ | q
      · simp only [hq] at hreg; cases hreg
      simp only [hq] at hreg
      have hq1 : o.inc ≤ q := by
        unfold arange at hq
        rw [List.getElem?_map] at hq
        rcases hk : (List.range ⌈(rmax - rmax * o.minFrac) / o.inc⌉₊)[k + 1]? with _ | j
        · rw [hk] at hq; cases hq
        rw [hk] at hq
        have hj : j = k + 1 := by
          have := List.getElem?_eq_some_iff.1 hk
          obtain ⟨_, h6⟩ := this
          simpa using h6.symm
        simp only [Option.map_some, Option.some.injEq] at hq
        rw [← hq, hj]
        push_cast
        nlinarith [(Nat.cast_nonneg k : (0 : ℝ) ≤ (k : ℝ))]
      have h7 : 1 / q ≤ 1 / o.inc := one_div_le_one_div_of_le hi hq1
      have h8 : (o.maxLen : ℝ) < (1 / (rmax * o.minFrac) - 1 / q) / o.dv := by
        rw [lt_div_iff₀ hdv]
        linarith
      have h9 : o.maxLen < ⌈(1 / (rmax * o.minFrac) - 1 / q) / o.dv⌉₊ := by
        exact_mod_cast h8.trans_le (Nat.le_ceil _)
      cases hreg
      simp only [List.length_append, List.length_map, List.length_reverse, arange, List.length_range]
      omega
  obtain ⟨e, he⟩ := hb
  have ha : arrays P o none rmax = .error e := by
    simp only [arrays, chosenMax, he]
  rw [ha, c89_errors P o none rmax e ha]

private theorem refused_crude (P : ℝ → ℝ) (rmax : ℝ) (hr : 0 < rmax) (h : rmax < 4990 ∨ 100000 < rmax) :
    arrays P IsothermOptions.defaults none rmax = .error .valueError := by
  rcases h with h | h
  · refine c179_long P _ rmax hr (by norm_num [IsothermOptions.defaults]) (by norm_num [IsothermOptions.defaults])
      (by norm_num [IsothermOptions.defaults]) (by norm_num [IsothermOptions.defaults]) ?_
    rw [lt_div_iff₀ (mul_pos hr (by norm_num [IsothermOptions.defaults]))]
    norm_num [IsothermOptions.defaults]
    linarith
  · have : base IsothermOptions.defaults rmax = .error .valueError := by
      unfold base
      rw [if_pos h]
    simp only [arrays, chosenMax, this]

private theorem accepted_crude (P : ℝ → ℝ) (rmax : ℝ) (h1 : 5005.1 ≤ rmax) (h2 : rmax ≤ 100000) :
    ∃ vs ps, arrays P IsothermOptions.defaults none rmax = .ok (vs, ps) := by
  have hr : 0 < rmax := by linarith
  refine c89_defined P _ none rmax h2 ?_ (by norm_num [IsothermOptions.defaults]) hr (by norm_num [IsothermOptions.defaults])
    (by norm_num [IsothermOptions.defaults]) ?_
  · show (5 : ℝ) < rmax - rmax * (1 / 500000)
    linarith
  · show ⌈1 / (rmax * (1 / 500000)) / 1e-4⌉₊ + ⌈rmax / 5⌉₊ ≤ 1000000
    have e : 1 / (rmax * (1 / 500000)) / (1e-4 : ℝ) = 5000000000 / rmax := by field_simp; norm_num
    rw [e]
    have hc : 5000000000 / rmax + rmax / 5 ≤ 999998 := by
      rw [div_add_div _ _ hr.ne' (by norm_num), div_le_iff₀ (by positivity)]
      nlinarith [mul_nonneg (sub_nonneg.2 h1) (sub_nonneg.2 h2)]
    have a1 := Nat.ceil_lt_add_one (div_nonneg (by norm_num : (0 : ℝ) ≤ 5000000000) hr.le)
    have a2 := Nat.ceil_lt_add_one (div_nonneg hr.le (by norm_num : (0 : ℝ) ≤ 5))
    have : ((⌈5000000000 / rmax⌉₊ + ⌈rmax / 5⌉₊ : ℕ) : ℝ) ≤ (1000000 : ℕ) := by
      push_cast
      linarith
    exact_mod_cast this

private theorem whereBig_last (dv : ℝ) (a b : List ℝ) (x : ℝ) (hx : dv < x) (hb : ∀ y ∈ b, y ≤ dv) :
    (whereBig dv (a ++ x :: b)).getLast? = some a.length := by
  have h : (b.zipIdx (a.length + 1)).filter (fun p => decide (dv < p.1)) = [] := by
    rw [List.filter_eq_nil_iff]
    intro p hp
    have := hb _ (List.fst_mem_of_mem_zipIdx hp)
    simpa using this
  simp [whereBig, List.zipIdx_append, List.filter_append, List.zipIdx_cons, hx, h]

private theorem vspace_arange (m : ℝ) (N : ℕ) :
    vspace ((List.range N).map fun i : ℕ => m + (i : ℝ) * 5)
      = (List.range (N - 1)).map fun i : ℕ => 1 / (m + (i : ℝ) * 5) - 1 / (m + ((i : ℝ) + 1) * 5) := by
  apply List.ext_getElem
  · simp [vspace]
  · intro i h1 h2
    simp [vspace]

private theorem regrid_defaults (m r : ℝ) (hm : 0 < m) (hm2 : m ≤ 1) (M : ℕ) (hN : ⌈(r - m) / 5⌉₊ = M + 46) :
    ∃ l, regrid m 1e-4 (arange m r 5) = .ok l ∧ l.length = ⌈(1 / m - 1 / (m + 225)) / 1e-4⌉₊ + M := by
  have hsplit : vspace (arange m r 5) =
      ((List.range 44).map fun i : ℕ => 1 / (m + (i : ℝ) * 5) - 1 / (m + ((i : ℝ) + 1) * 5))
      ++ (1 / (m + 220) - 1 / (m + 225)) ::
        ((List.range M).map fun i : ℕ => 1 / (m + ((i : ℝ) + 45) * 5) - 1 / (m + ((i : ℝ) + 46) * 5)) := by
    unfold arange
    rw [hN, vspace_arange, show M + 46 - 1 = 44 + (M + 1) by omega, List.range_add, List.map_append, List.range_succ_eq_map (n := M)]
    congr 1
    simp only [List.map_cons, List.map_map]
    congr 1
    · norm_num
    · apply List.map_congr_left
      intro i _
      simp only [Function.comp]
      push_cast
      congr 3 <;> ring
  have hlast : (whereBig (1e-4 : ℝ) (vspace (arange m r 5))).getLast? = some 44 := by
    rw [hsplit]
    have := whereBig_last 1e-4 ((List.range 44).map fun i : ℕ => 1 / (m + (i : ℝ) * 5) - 1 / (m + ((i : ℝ) + 1) * 5))
      ((List.range M).map fun i : ℕ => 1 / (m + ((i : ℝ) + 45) * 5) - 1 / (m + ((i : ℝ) + 46) * 5))
      (1 / (m + 220) - 1 / (m + 225)) ?_ ?_
    · rw [this]; simp
    · rw [div_sub_div _ _ (by linarith) (by linarith), lt_div_iff₀ (by nlinarith)]
      norm_num
      nlinarith
    · intro y hy
      obtain ⟨i, _, rfl⟩ := List.mem_map.1 hy
      have hi : (0 : ℝ) ≤ i := Nat.cast_nonneg i
      rw [div_sub_div _ _ (by nlinarith) (by nlinarith), div_le_iff₀ (by nlinarith)]
      norm_num
      nlinarith
  have hne : (vspace (arange m r 5)).isEmpty = false := by rw [hsplit]; simp
  have hq : (arange m r 5)[44 + 1]? = some (m + 225) := by
    unfold arange
    rw [hN, List.getElem?_map, List.getElem?_range (by omega)]
    norm_num
  refine ⟨((arange (1 / (m + 225)) (1 / m) 1e-4).reverse.map (1 / ·)) ++ (arange m r 5).drop (44 + 2), ?_, ?_⟩
  · unfold regrid
    rw [if_neg (by simp [hne]), hlast]
    simp only [hq]
  · simp only [List.length_append, List.length_map, List.length_reverse, List.length_drop, arange, List.length_range, hN]
    omega

/-- **C179** (defaults, exactly): from 250 to 100000 mol/m³ the isotherm is computed if and only if its points, those in steps of the
volume together with those in steps of the density, are not more than a million. -/
theorem c179_exact (P : ℝ → ℝ) (r : ℝ) (h1 : 250 ≤ r) (h2 : r ≤ 100000) :
    (∃ vs ps, arrays P IsothermOptions.defaults none r = .ok (vs, ps)) ↔
      ⌈(500000 / r - 1 / (r / 500000 + 225)) / 1e-4⌉₊ + (⌈(r - r / 500000) / 5⌉₊ - 46) ≤ 1000000 := by
  have hm : r * (1 / 500000) = r / 500000 := by ring
  have hinv : 1 / (r / 500000) = 500000 / r := by rw [one_div_div]
  have hN : 46 ≤ ⌈(r - r / 500000) / 5⌉₊ := by
    have : (46 : ℝ) ≤ (r - r / 500000) / 5 := by linarith
    exact_mod_cast this.trans (Nat.le_ceil _)
  obtain ⟨M, hM⟩ := Nat.exists_eq_add_of_le' hN
  obtain ⟨l, hl, hlen⟩ := regrid_defaults (r / 500000) r (by linarith) (by linarith) M hM
  rw [hinv] at hlen
  rw [hM, Nat.add_sub_cancel, ← hlen]
  have hreg : regrid (r * IsothermOptions.defaults.minFrac) IsothermOptions.defaults.dv
      (arange (r * IsothermOptions.defaults.minFrac) r IsothermOptions.defaults.inc) = .ok l := by
    show regrid (r * (1 / 500000)) 1e-4 (arange (r * (1 / 500000)) r 5) = .ok l
    rw [hm]
    exact hl
  have hb : base IsothermOptions.defaults r = if l.length > 1000000 then .error .valueError else .ok l := by
    unfold base
    rw [if_neg (by linarith), if_neg]
    · rw [hreg]
      rfl
    · show ¬ (r - r * (1 / 500000) < 5)
      linarith
  simp only [arrays, chosenMax, hb]
  by_cases hc : l.length > 1000000
  · rw [if_pos hc]
    constructor
    · rintro ⟨_, _, h⟩; cases h
    · intro h; omega
  · rw [if_neg hc]
    exact ⟨fun _ => by omega, fun _ => ⟨_, _, rfl⟩⟩

/-- **C179** (defaults, what is refused): below 5004.55 and above 100000 mol/m³ no isotherm is computed. -/
theorem c179_refused (P : ℝ → ℝ) (rmax : ℝ) (hr : 0 < rmax) (h : rmax < 5004.55 ∨ 100000 < rmax) :
    arrays P IsothermOptions.defaults none rmax = .error .valueError := by
  by_cases h0 : rmax < 4990 ∨ 100000 < rmax
  · exact refused_crude P rmax hr h0
  push Not at h0
  have hlt : rmax < 5004.55 := h.resolve_right (not_lt.2 h0.2)
  rcases ha : arrays P IsothermOptions.defaults none rmax with e | ⟨vs, ps⟩
  · rw [c89_errors P _ none rmax e ha]
  exfalso
  have hex := (c179_exact P rmax (by linarith) h0.2).1 ⟨vs, ps, ha⟩
  have c1 := Nat.le_ceil ((500000 / rmax - 1 / (rmax / 500000 + 225)) / 1e-4)
  have c2 := Nat.le_ceil ((rmax - rmax / 500000) / 5)
  generalize ⌈(500000 / rmax - 1 / (rmax / 500000 + 225)) / 1e-4⌉₊ = A at *
  generalize ⌈(rmax - rmax / 500000) / 5⌉₊ = B at *
  have hAB : ((A + B : ℕ) : ℝ) ≤ (1000046 : ℕ) := by exact_mod_cast (by omega : A + B ≤ 1000046)
  push_cast at hAB
  have b1 : 1 / (rmax / 500000 + 225) ≤ 1 / 225 := one_div_le_one_div_of_le (by norm_num) (by linarith)
  have b2 : 1000090.4445 < 10000 * (500000 / rmax) + (rmax - rmax / 500000) / 5 := by
    have h3 : 10000 * (500000 / rmax) = 5000000000 / rmax := by ring
    rw [h3, ← sub_lt_iff_lt_add, lt_div_iff₀ hr]
    norm_num at hlt ⊢
    nlinarith [mul_nonneg (sub_nonneg.2 hlt.le) (sub_nonneg.2 h0.1)]
  have c3 : 10000 * (500000 / rmax) - 10000 * (1 / (rmax / 500000 + 225)) ≤ A := by
    refine le_trans (le_of_eq ?_) c1
    norm_num
    ring
  norm_num at b1 b2 c3
  linarith

/-- **C179** (defaults, what is accepted): from 5004.56 to 100000 mol/m³ the isotherm is computed, whatever the equation of state. -/
theorem c179_accepted_partial (P : ℝ → ℝ) (rmax : ℝ) (h1 : 5004.56 ≤ rmax) (h2 : rmax ≤ 100000) :
    ∃ vs ps, arrays P IsothermOptions.defaults none rmax = .ok (vs, ps) := by
  by_cases h3 : 5005.1 ≤ rmax
  · exact accepted_crude P rmax h3 h2
  have h3 := not_le.1 h3
  have hr : 0 < rmax := by linarith
  refine (c179_exact P rmax (by linarith) h2).2 ?_
  have e : (500000 / rmax - 1 / (rmax / 500000 + 225)) / 1e-4 = 5000000000 / rmax - 10000 * (1 / (rmax / 500000 + 225)) := by
    norm_num
    ring
  have b1 : 1 / 225.011 ≤ 1 / (rmax / 500000 + 225) := one_div_le_one_div_of_le (by linarith) (by norm_num at h3 ⊢; linarith)
  by_cases h4 : rmax ≤ 5005
  · have a1 : ⌈(500000 / rmax - 1 / (rmax / 500000 + 225)) / 1e-4⌉₊ ≤ 999045 := by
      rw [Nat.ceil_le, e]
      have : 5000000000 / rmax ≤ 999089.442 := by
        rw [div_le_iff₀ hr]
        norm_num at h1 ⊢
        linarith
      norm_num at this b1 ⊢
      linarith
    have a2 : ⌈(rmax - rmax / 500000) / 5⌉₊ ≤ 1001 := by
      rw [Nat.ceil_le]
      push_cast
      linarith
    omega
  · have h4 := not_le.1 h4
    have a1 : ⌈(500000 / rmax - 1 / (rmax / 500000 + 225)) / 1e-4⌉₊ ≤ 999001 := by
      rw [Nat.ceil_le, e]
      have : 5000000000 / rmax ≤ 999001 := by
        rw [div_le_iff₀ hr]
        linarith
      norm_num at this b1 ⊢
      linarith
    have a2 : ⌈(rmax - rmax / 500000) / 5⌉₊ ≤ 1002 := by
      rw [Nat.ceil_le]
      push_cast
      norm_num at h3
      linarith
    omega

/-- **C179** (fitting): the options of the data class for saturation reach from 800.1 mol/m³ on and refuse below 799; those for flash
and liquid density reach from 3001 and refuse below 2997. -/
theorem c179_fitting (P : ℝ → ℝ) (rmax : ℝ) (hr : 0 < rmax) (h2 : rmax ≤ 100000) :
    (rmax < 799 → arrays P IsothermOptions.saturation none rmax = .error .valueError) ∧
    (800.1 ≤ rmax → ∃ vs ps, arrays P IsothermOptions.saturation none rmax = .ok (vs, ps)) ∧
    (rmax < 2997 → arrays P IsothermOptions.flash none rmax = .error .valueError) ∧
    (3001 ≤ rmax → ∃ vs ps, arrays P IsothermOptions.flash none rmax = .ok (vs, ps)) := by
  refine ⟨fun h => ?_, fun h => ?_, fun h => ?_, fun h => ?_⟩
  · refine c179_long P _ rmax hr (by norm_num [IsothermOptions.saturation]) (by norm_num [IsothermOptions.saturation])
      (by norm_num [IsothermOptions.saturation]) (by norm_num [IsothermOptions.saturation, IsothermOptions.defaults]) ?_
    rw [lt_div_iff₀ (mul_pos hr (by norm_num [IsothermOptions.saturation]))]
    norm_num [IsothermOptions.saturation, IsothermOptions.defaults]
    linarith
  · refine c89_defined P _ none rmax h2 ?_ (by norm_num [IsothermOptions.saturation]) hr (by norm_num [IsothermOptions.saturation])
      (by norm_num [IsothermOptions.saturation]) ?_
    · show (10 : ℝ) < rmax - rmax * (1 / 80000)
      linarith
    · show ⌈1 / (rmax * (1 / 80000)) / 1e-4⌉₊ + ⌈rmax / 10⌉₊ ≤ 1000000
      have e : 1 / (rmax * (1 / 80000)) / (1e-4 : ℝ) = 800000000 / rmax := by field_simp; norm_num
      rw [e]
      have hc : 800000000 / rmax + rmax / 10 ≤ 999998 := by
        rw [div_add_div _ _ hr.ne' (by norm_num), div_le_iff₀ (by positivity)]
        nlinarith [mul_nonneg (sub_nonneg.2 h) (sub_nonneg.2 h2)]
      have a1 := Nat.ceil_lt_add_one (div_nonneg (by norm_num : (0 : ℝ) ≤ 800000000) hr.le)
      have a2 := Nat.ceil_lt_add_one (div_nonneg hr.le (by norm_num : (0 : ℝ) ≤ 10))
      have : ((⌈800000000 / rmax⌉₊ + ⌈rmax / 10⌉₊ : ℕ) : ℝ) ≤ (1000000 : ℕ) := by
        push_cast
        linarith
      exact_mod_cast this
  · refine c179_long P _ rmax hr (by norm_num [IsothermOptions.flash]) (by norm_num [IsothermOptions.flash])
      (by norm_num [IsothermOptions.flash]) (by norm_num [IsothermOptions.flash, IsothermOptions.defaults]) ?_
    rw [lt_div_iff₀ (mul_pos hr (by norm_num [IsothermOptions.flash]))]
    norm_num [IsothermOptions.flash, IsothermOptions.defaults]
    linarith
  · refine c89_defined P _ none rmax h2 ?_ (by norm_num [IsothermOptions.flash]) hr (by norm_num [IsothermOptions.flash])
      (by norm_num [IsothermOptions.flash]) ?_
    · show (10 : ℝ) < rmax - rmax * (1 / 300000)
      linarith
    · show ⌈1 / (rmax * (1 / 300000)) / 1e-4⌉₊ + ⌈rmax / 10⌉₊ ≤ 1000000
      have e : 1 / (rmax * (1 / 300000)) / (1e-4 : ℝ) = 3000000000 / rmax := by field_simp; norm_num
      rw [e]
      have hc : 3000000000 / rmax + rmax / 10 ≤ 999998 := by
        rw [div_add_div _ _ hr.ne' (by norm_num), div_le_iff₀ (by positivity)]
        nlinarith [mul_nonneg (sub_nonneg.2 h) (sub_nonneg.2 h2)]
      have a1 := Nat.ceil_lt_add_one (div_nonneg (by norm_num : (0 : ℝ) ≤ 3000000000) hr.le)
      have a2 := Nat.ceil_lt_add_one (div_nonneg hr.le (by norm_num : (0 : ℝ) ≤ 10))
      have : ((⌈3000000000 / rmax⌉₊ + ⌈rmax / 10⌉₊ : ℕ) : ℝ) ≤ (1000000 : ℕ) := by
        push_cast
        linarith
      exact_mod_cast this

example : ∃ vs ps, arrays (fun ρ => 8 * 300 * ρ) IsothermOptions.defaults none 20000 = .ok (vs, ps) :=
  c179_accepted_partial _ _ (by norm_num) (by norm_num)
example : arrays (fun ρ => 8 * 300 * ρ) IsothermOptions.defaults none 4000 = .error .valueError :=
  c179_refused _ _ (by norm_num) (.inl (by norm_num))
example : ∃ vs ps, arrays (fun ρ => 8 * 300 * ρ) IsothermOptions.saturation none 4000 = .ok (vs, ps) :=
  (c179_fitting _ 4000 (by norm_num) (by norm_num)).2.1 (by norm_num)

/-- **C179 violated** (cubic equation of state): a fluid of one substance with a critical temperature above 2.78027e-4 K per Pa of its
critical pressure has no isotherm with the default options, at any temperature; one below 2.78025e-4 (and above 1.4e-5) has. -/
theorem c179_violated_cubic (T Tc Pc : ℝ) (p : PengRobinson.Par 1) (hT : 0 < Tc) (hP : 0 < Pc)
    (hb : p.bi 0 = 0.07779607 * (SaftEnergy.R * Tc / Pc)) :
    (2.78027e-4 * Pc < Tc → IsothermOptions.cubic IsothermOptions.defaults T p (fun _ => 1) = .error .valueError) ∧
    (1.4e-5 * Pc < Tc → Tc < 2.78025e-4 * Pc →
      ∃ vs ps, IsothermOptions.cubic IsothermOptions.defaults T p (fun _ => 1) = .ok (vs, ps)) := by
  have hR : SaftEnergy.R = 8.31446261815324 := rfl
  have hm : PengRobinson.bmix p (fun _ => 1) = 0.07779607 * (SaftEnergy.R * Tc / Pc) := by
    simp [PengRobinson.bmix, hb]
  have hpos : 0 < 0.07779607 * (SaftEnergy.R * Tc / Pc) := by rw [hR]; positivity
  have hd : PengRobinson.densityMax p (fun _ => 1) 0.9 = 0.9 / (0.07779607 * (SaftEnergy.R * Tc / Pc)) := by
    rw [PengRobinson.densityMax, hm]
  unfold IsothermOptions.cubic
  rw [hd]
  have hw : 0.07779607 * (SaftEnergy.R * Tc / Pc) = 0.07779607 * 8.31446261815324 * (Tc / Pc) := by rw [hR]; ring
  rw [hw] at hpos ⊢
  clear hd hm
  constructor
  · intro h
    have h' : 2.78027e-4 < Tc / Pc := (lt_div_iff₀ hP).2 h
    refine c179_refused _ _ (div_pos (by norm_num) hpos) (.inl ?_)
    rw [div_lt_iff₀ hpos]
    norm_num at h' ⊢
    linarith
  · intro h1 h2
    have h1' : 1.4e-5 < Tc / Pc := (lt_div_iff₀ hP).2 h1
    have h2' : Tc / Pc < 2.78025e-4 := (div_lt_iff₀ hP).2 h2
    refine c179_accepted_partial _ _ ?_ ?_
    · rw [le_div_iff₀ hpos]
      norm_num at h2' ⊢
      linarith
    · rw [div_le_iff₀ hpos]
      norm_num at h1' ⊢
      linarith

/-- **C179** (mixtures): a cubic mixture of substances each of which has an isotherm has one at every composition. -/
theorem c179_mixture_partial {n : ℕ} (T : ℝ) (p : PengRobinson.Par n) (x : Fin n → ℝ) (hx : ∀ i, 0 ≤ x i) (h1 : ∑ i, x i = 1)
    (hb : ∀ i, 0.9 / 100000 ≤ p.bi i ∧ p.bi i ≤ 0.9 / 5004.56) :
    ∃ vs ps, IsothermOptions.cubic IsothermOptions.defaults T p x = .ok (vs, ps) := by
  have hlo : 0.9 / 100000 ≤ PengRobinson.bmix p x := by
    calc (0.9 / 100000 : ℝ) = ∑ i, x i * (0.9 / 100000) := by rw [← Finset.sum_mul, h1, one_mul]
      _ ≤ _ := Finset.sum_le_sum fun i _ => mul_le_mul_of_nonneg_left (hb i).1 (hx i)
  have hhi : PengRobinson.bmix p x ≤ 0.9 / 5004.56 := by
    calc PengRobinson.bmix p x ≤ ∑ i, x i * (0.9 / 5004.56) :=
          Finset.sum_le_sum fun i _ => mul_le_mul_of_nonneg_left (hb i).2 (hx i)
      _ = 0.9 / 5004.56 := by rw [← Finset.sum_mul, h1, one_mul]
  have hpos : 0 < PengRobinson.bmix p x := lt_of_lt_of_le (by norm_num) hlo
  unfold IsothermOptions.cubic PengRobinson.densityMax
  refine c179_accepted_partial _ _ ?_ ?_
  · rw [le_div_iff₀ hpos]
    norm_num at hhi ⊢
    linarith
  · rw [div_le_iff₀ hpos]
    norm_num at hlo ⊢
    linarith

example (T : ℝ) : ∃ vs ps, IsothermOptions.cubic IsothermOptions.defaults T
    (⟨fun _ => 1, ![2.7e-5, 1.2e-4], fun _ => 1, fun _ _ => 0⟩ : PengRobinson.Par 2) ![0.3, 0.7] = .ok (vs, ps) :=
  c179_mixture_partial T _ _ (by intro i; fin_cases i <;> norm_num) (by norm_num [Fin.sum_univ_two])
    (by intro i; fin_cases i <;> norm_num)

/-- Decane (617.7 K, 2.11 MPa) has no isotherm, octane (568.7 K, 2.49 MPa) has. -/
example (T : ℝ) : IsothermOptions.cubic IsothermOptions.defaults T
      (⟨fun _ => 5, fun _ => 0.07779607 * (SaftEnergy.R * 617.7 / 2110000), fun _ => 1, fun _ _ => 0⟩ : PengRobinson.Par 1) (fun _ => 1) = .error .valueError ∧
    ∃ vs ps, IsothermOptions.cubic IsothermOptions.defaults T
      (⟨fun _ => 5, fun _ => 0.07779607 * (SaftEnergy.R * 568.7 / 2490000), fun _ => 1, fun _ _ => 0⟩ : PengRobinson.Par 1) (fun _ => 1) = .ok (vs, ps) :=
  ⟨(c179_violated_cubic T 617.7 2110000 _ (by norm_num) (by norm_num) rfl).1 (by norm_num),
    (c179_violated_cubic T 568.7 2490000 _ (by norm_num) (by norm_num) rfl).2 (by norm_num) (by norm_num)⟩

/-- **C179 violated** (SAFT): molecules whose segments together take more than 0.41192 nm³ (as cubes of the diameter), or less than
0.0206 nm³, have no isotherm with the default options; those between 0.0207 and 0.4119 nm³ have. -/
theorem c179_violated_saft {n m : ℕ} (P : ℝ → ℝ) (g : Saft.Groups n m) (d : Fin m → Fin m → ℝ) (x : Fin n → ℝ) (V : ℝ) (h0 : 0 < V)
    (hV : Saft.cmol2seg g x * ∑ k, ∑ l, Saft.xskl g x k l * d k l ^ 3 = V) :
    (0.41192 < V ∨ V < 0.0206 → IsothermOptions.saft IsothermOptions.defaults P g d x = .error .valueError) ∧
    (0.0207 < V → V < 0.4119 → ∃ vs ps, IsothermOptions.saft IsothermOptions.defaults P g d x = .ok (vs, ps)) := by
  have hM : SaftEnergy.moleculePerNm3 = 6.02214086e-4 := rfl
  have hd : Saft.densityMax SaftEnergy.moleculePerNm3 (Saft.cmol2seg g x) (Saft.xskl g x) d 0.65
      = 3.9 / (Real.pi * V * 6.02214086e-4) := by
    unfold Saft.densityMax
    rw [hM, div_div, ← hV]
    congr 1
    · norm_num
    · ring
  unfold IsothermOptions.saft
  rw [hd]
  have p1 := Real.pi_gt_d4
  have p2 := Real.pi_lt_d4
  have hpos : 0 < Real.pi * V * 6.02214086e-4 := by positivity
  constructor
  · intro h
    refine c179_refused _ _ (div_pos (by norm_num) hpos) ?_
    rcases h with h | h
    · left
      rw [div_lt_iff₀ hpos]
      norm_num at h p1 ⊢
      nlinarith
    · right
      rw [lt_div_iff₀ hpos]
      norm_num at h p2 ⊢
      nlinarith
  · intro h1 h2
    refine c179_accepted_partial _ _ ?_ ?_
    · rw [le_div_iff₀ hpos]
      norm_num at h2 p2 ⊢
      nlinarith
    · rw [div_le_iff₀ hpos]
      norm_num at h1 p1 ⊢
      nlinarith

/-- **C179** (mixtures in SAFT): when no group is smaller than 0.28 nm, every molecule has at least one segment and no molecule takes
more than 0.4118 nm³, the mixture has an isotherm at every composition. -/
theorem c179_saft_mixture_partial {n m : ℕ} (P : ℝ → ℝ) (g : Saft.Groups n m) (d : Fin m → ℝ) (x : Fin n → ℝ) (hx : ∀ i, 0 ≤ x i)
    (h1 : ∑ i, x i = 1) (hν : ∀ i k, 0 ≤ g.ν i k) (hV : ∀ k, 0 ≤ g.V k) (hS : ∀ k, 0 ≤ g.S k) (hd : ∀ k, 0.28 ≤ d k)
    (hm : ∀ i, 1 ≤ ∑ k, g.ν i k * g.V k * g.S k) (hvol : ∀ i, ∑ k, g.ν i k * g.V k * g.S k * d k ^ 3 ≤ 0.4118) :
    ∃ vs ps, IsothermOptions.saft IsothermOptions.defaults P g (Saft.dklOf d) x = .ok (vs, ps) := by
  have hC : 1 ≤ Saft.cmol2seg g x := by
    calc (1 : ℝ) = ∑ i, x i * 1 := by simp [h1]
      _ ≤ ∑ i, x i * ∑ k, g.ν i k * g.V k * g.S k := Finset.sum_le_sum fun i _ => mul_le_mul_of_nonneg_left (hm i) (hx i)
      _ = Saft.cmol2seg g x := by
        unfold Saft.cmol2seg
        refine Finset.sum_congr rfl fun i _ => ?_
        rw [Finset.mul_sum]
        exact Finset.sum_congr rfl fun k _ => by ring
  have hC0 : Saft.cmol2seg g x ≠ 0 := by linarith
  obtain ⟨-, hw0, hw1⟩ := c17_xskl g x hx hν hV hS hC0
  have hs1 := c17_xsk_sum_one g x hC0
  have hlow : (0.28 : ℝ) ^ 3 ≤ ∑ k, ∑ l, Saft.xskl g x k l * Saft.dklOf d k l ^ 3 := by
    calc (0.28 : ℝ) ^ 3 = ∑ k, ∑ l, Saft.xskl g x k l * 0.28 ^ 3 := by
          simp only [← Finset.sum_mul, hw1, one_mul]
      _ ≤ _ := Finset.sum_le_sum fun k _ => Finset.sum_le_sum fun l _ => mul_le_mul_of_nonneg_left
          (pow_le_pow_left₀ (by norm_num) (by unfold Saft.dklOf; linarith [hd k, hd l]) 3) (hw0 k l)
  have hup : ∑ k, ∑ l, Saft.xskl g x k l * Saft.dklOf d k l ^ 3 ≤ ∑ k, Saft.xsk g x k * d k ^ 3 := by
    have hcube : ∀ a b : ℝ, 0 ≤ a → 0 ≤ b → ((a + b) / 2) ^ 3 ≤ (a ^ 3 + b ^ 3) / 2 := fun a b ha hb => by
      nlinarith [mul_nonneg (add_nonneg ha hb) (sq_nonneg (a - b))]
    have hpos : ∀ k, 0 ≤ d k := fun k => le_trans (by norm_num) (hd k)
    calc ∑ k, ∑ l, Saft.xskl g x k l * Saft.dklOf d k l ^ 3
        ≤ ∑ k, ∑ l, Saft.xskl g x k l * ((d k ^ 3 + d l ^ 3) / 2) :=
          Finset.sum_le_sum fun k _ => Finset.sum_le_sum fun l _ =>
            mul_le_mul_of_nonneg_left (hcube _ _ (hpos k) (hpos l)) (hw0 k l)
      _ = ((∑ k, Saft.xsk g x k * d k ^ 3) * (∑ l, Saft.xsk g x l) + (∑ k, Saft.xsk g x k) * ∑ l, Saft.xsk g x l * d l ^ 3) / 2 := by
          rw [Finset.sum_mul_sum, Finset.sum_mul_sum, ← Finset.sum_add_distrib, Finset.sum_div]
          refine Finset.sum_congr rfl fun k _ => ?_
          rw [← Finset.sum_add_distrib, Finset.sum_div]
          refine Finset.sum_congr rfl fun l _ => ?_
          unfold Saft.xskl
          ring
      _ = _ := by rw [hs1]; ring
  have hlin : Saft.cmol2seg g x * ∑ k, Saft.xsk g x k * d k ^ 3 ≤ 0.4118 := by
    calc Saft.cmol2seg g x * ∑ k, Saft.xsk g x k * d k ^ 3
        = ∑ k, (∑ i, x i * g.ν i k) * g.V k * g.S k * d k ^ 3 := by
          rw [Finset.mul_sum]
          refine Finset.sum_congr rfl fun k _ => ?_
          unfold Saft.xsk
          field_simp
      _ = ∑ i, x i * ∑ k, g.ν i k * g.V k * g.S k * d k ^ 3 := by
          simp only [Finset.sum_mul, Finset.mul_sum]
          rw [Finset.sum_comm]
          exact Finset.sum_congr rfl fun i _ => Finset.sum_congr rfl fun k _ => by ring
      _ ≤ ∑ i, x i * 0.4118 := Finset.sum_le_sum fun i _ => mul_le_mul_of_nonneg_left (hvol i) (hx i)
      _ = 0.4118 := by rw [← Finset.sum_mul, h1, one_mul]
  have h3 : (0.28 : ℝ) ^ 3 ≤ Saft.cmol2seg g x * ∑ k, ∑ l, Saft.xskl g x k l * Saft.dklOf d k l ^ 3 :=
    hlow.trans (le_mul_of_one_le_left (le_trans (by norm_num) hlow) hC)
  have h4 : Saft.cmol2seg g x * ∑ k, ∑ l, Saft.xskl g x k l * Saft.dklOf d k l ^ 3 ≤ 0.4118 :=
    (mul_le_mul_of_nonneg_left hup (by linarith)).trans hlin
  refine (c179_violated_saft P g (Saft.dklOf d) x _ (lt_of_lt_of_le (by norm_num) h3) rfl).2 ?_ ?_
  · exact lt_of_lt_of_le (by norm_num) h3
  · exact lt_of_le_of_lt h4 (by norm_num)

/-- Spheres of 0.3 nm and chains of three groups of 0.4 nm. -/
example (P : ℝ → ℝ) : ∃ vs ps, IsothermOptions.saft IsothermOptions.defaults P
    (⟨![![1, 0], ![0, 3]], fun _ => 1, fun _ => 1⟩ : Saft.Groups 2 2) (Saft.dklOf ![0.3, 0.4]) ![0.5, 0.5] = .ok (vs, ps) :=
  c179_saft_mixture_partial P _ _ _ (by intro i; fin_cases i <;> norm_num) (by norm_num [Fin.sum_univ_two])
    (by intro i k; fin_cases i <;> fin_cases k <;> norm_num) (by intro k; norm_num) (by intro k; norm_num)
    (by intro k; fin_cases k <;> norm_num) (by intro i; fin_cases i <;> norm_num [Fin.sum_univ_two])
    (by intro i; fin_cases i <;> norm_num [Fin.sum_univ_two])

/-- Single spheres of 0.25 nm, within the bounds of the parameter (0.1 to 1 nm), have no isotherm; those of 0.4 nm have. -/
example (P : ℝ → ℝ) : IsothermOptions.saft IsothermOptions.defaults P (⟨fun _ _ => 1, fun _ => 1, fun _ => 1⟩ : Saft.Groups 1 1)
      (fun _ _ => 0.25) (fun _ => 1) = .error .valueError ∧
    ∃ vs ps, IsothermOptions.saft IsothermOptions.defaults P (⟨fun _ _ => 1, fun _ => 1, fun _ => 1⟩ : Saft.Groups 1 1)
      (fun _ _ => 0.4) (fun _ => 1) = .ok (vs, ps) :=
  ⟨(c179_violated_saft P _ _ _ (0.25 ^ 3) (by norm_num) (by simp [Saft.cmol2seg, Saft.xskl, Saft.xsk])).1 (.inr (by norm_num)),
    (c179_violated_saft P _ _ _ (0.4 ^ 3) (by norm_num) (by simp [Saft.cmol2seg, Saft.xskl, Saft.xsk])).2 (by norm_num) (by norm_num)⟩

end Verif.Props
