import Verif.Props.IsothermWindow

/-! # C179: which fluids have an isotherm with the options of the data classes -/

namespace Verif.Props
open Verif Verif.PressureVolume

private theorem last_large (dv : ℝ) (a b : List ℝ) (x : ℝ) (hx : dv < x) (hb : ∀ y ∈ b, y ≤ dv) :
    (whereBig dv (a ++ x :: b)).getLast? = some a.length := by
  have h : (b.zipIdx (a.length + 1)).filter (fun p => decide (dv < p.1)) = [] := by
    rw [List.filter_eq_nil_iff]
    intro p hp
    have := hb _ (List.fst_mem_of_mem_zipIdx hp)
    simpa using this
  simp [whereBig, List.zipIdx_append, List.filter_append, List.zipIdx_cons, hx, h]

private theorem vspace_tens (m : ℝ) (N : ℕ) :
    vspace ((List.range N).map fun i : ℕ => m + (i : ℝ) * 10)
      = (List.range (N - 1)).map fun i : ℕ => 1 / (m + (i : ℝ) * 10) - 1 / (m + ((i : ℝ) + 1) * 10) := by
  apply List.ext_getElem
  · simp [vspace]
  · intro i h1 h2
    simp [vspace]

private theorem regrid_tens (m r : ℝ) (hm : 0 < m) (hm2 : m ≤ 1.25) (M : ℕ) (hN : ⌈(r - m) / 10⌉₊ = M + 33) :
    ∃ l, regrid m 1e-4 (arange m r 10) = .ok l ∧ l.length = ⌈(1 / m - 1 / (m + 320)) / 1e-4⌉₊ + M := by
  have hsplit : vspace (arange m r 10) =
      ((List.range 31).map fun i : ℕ => 1 / (m + (i : ℝ) * 10) - 1 / (m + ((i : ℝ) + 1) * 10))
      ++ (1 / (m + 310) - 1 / (m + 320)) ::
        ((List.range M).map fun i : ℕ => 1 / (m + ((i : ℝ) + 32) * 10) - 1 / (m + ((i : ℝ) + 33) * 10)) := by
    unfold arange
    rw [hN, vspace_tens, show M + 33 - 1 = 31 + (M + 1) by omega, List.range_add, List.map_append,
      List.range_succ_eq_map (n := M)]
    congr 1
    simp only [List.map_cons, List.map_map]
    congr 1
    · norm_num
    · apply List.map_congr_left
      intro i _
      simp only [Function.comp]
      push_cast
      congr 3 <;> ring
  norm_num at hm2
  have hlast : (whereBig (1e-4 : ℝ) (vspace (arange m r 10))).getLast? = some 31 := by
    rw [hsplit]
    have := last_large 1e-4 ((List.range 31).map fun i : ℕ => 1 / (m + (i : ℝ) * 10) - 1 / (m + ((i : ℝ) + 1) * 10))
      ((List.range M).map fun i : ℕ => 1 / (m + ((i : ℝ) + 32) * 10) - 1 / (m + ((i : ℝ) + 33) * 10))
      (1 / (m + 310) - 1 / (m + 320)) ?_ ?_
    · rw [this]; simp
    · rw [div_sub_div _ _ (by linarith) (by linarith), lt_div_iff₀ (by nlinarith)]
      norm_num
      nlinarith
    · intro y hy
      obtain ⟨i, _, rfl⟩ := List.mem_map.1 hy
      have hi : (0 : ℝ) ≤ i := Nat.cast_nonneg i
      rw [div_sub_div _ _ (by nlinarith) (by nlinarith), div_le_iff₀ (by nlinarith)]
      norm_num
      nlinarith
  have hne : (vspace (arange m r 10)).isEmpty = false := by rw [hsplit]; simp
  have hq : (arange m r 10)[31 + 1]? = some (m + 320) := by
    unfold arange
    rw [hN, List.getElem?_map, List.getElem?_range (by omega)]
    norm_num
  refine ⟨((arange (1 / (m + 320)) (1 / m) 1e-4).reverse.map (1 / ·)) ++ (arange m r 10).drop (31 + 2), ?_, ?_⟩
  · unfold regrid
    rw [if_neg (by simp [hne]), hlast]
    simp only [hq]
  · simp only [List.length_append, List.length_map, List.length_reverse, List.length_drop, arange, List.length_range, hN]
    omega

private theorem exact_tens (P : ℝ → ℝ) (o : Opts ℝ) (F r : ℝ) (hF : 80000 ≤ F) (hf : o.minFrac = 1 / F) (hi : o.inc = 10)
    (hdv : o.dv = 1e-4) (hl : o.maxLen = 1000000) (h1 : 400 ≤ r) (h2 : r ≤ 100000) :
    (∃ vs ps, arrays P o none r = .ok (vs, ps)) ↔
      ⌈(F / r - 1 / (r / F + 320)) / 1e-4⌉₊ + (⌈(r - r / F) / 10⌉₊ - 33) ≤ 1000000 := by
  have hF0 : 0 < F := by linarith
  have hm : r * (1 / F) = r / F := by ring
  have hinv : 1 / (r / F) = F / r := by rw [one_div_div]
  have hq0 : 0 < r / F := div_pos (by linarith) hF0
  have hq1 : r / F ≤ 1.25 := by
    rw [div_le_iff₀ hF0]
    norm_num
    linarith
  have hN : 33 ≤ ⌈(r - r / F) / 10⌉₊ := by
    have : (33 : ℝ) ≤ (r - r / F) / 10 := by norm_num at hq1; linarith
    exact_mod_cast this.trans (Nat.le_ceil _)
  obtain ⟨M, hM⟩ := Nat.exists_eq_add_of_le' hN
  obtain ⟨l, hreg, hlen⟩ := regrid_tens (r / F) r hq0 hq1 M hM
  rw [hinv] at hlen
  rw [hM, Nat.add_sub_cancel, ← hlen]
  have hb : base o r = if l.length > 1000000 then .error .valueError else .ok l := by
    unfold base
    rw [hf, hi, hdv, hl, hm, if_neg (by linarith), if_neg (by norm_num at hq1; linarith), hreg]
  simp only [arrays, chosenMax, hb]
  by_cases hc : l.length > 1000000
  · rw [if_pos hc]
    constructor
    · rintro ⟨_, _, h⟩; cases h
    · intro h; omega
  · rw [if_neg hc]
    exact ⟨fun _ => by omega, fun _ => ⟨_, _, rfl⟩⟩

/-- **C179** (fitting, exactly): with the options of the data classes for saturation, and for flash and liquid density, from 400 to
100000 mol/m³ the isotherm is computed if and only if its points are not more than a million. -/
theorem c179_exact_fitting (P : ℝ → ℝ) (r : ℝ) (h1 : 400 ≤ r) (h2 : r ≤ 100000) :
    ((∃ vs ps, arrays P IsothermOptions.saturation none r = .ok (vs, ps)) ↔
      ⌈(80000 / r - 1 / (r / 80000 + 320)) / 1e-4⌉₊ + (⌈(r - r / 80000) / 10⌉₊ - 33) ≤ 1000000) ∧
    ((∃ vs ps, arrays P IsothermOptions.flash none r = .ok (vs, ps)) ↔
      ⌈(300000 / r - 1 / (r / 300000 + 320)) / 1e-4⌉₊ + (⌈(r - r / 300000) / 10⌉₊ - 33) ≤ 1000000) :=
  ⟨exact_tens P _ 80000 r (by norm_num) rfl rfl rfl rfl h1 h2, exact_tens P _ 300000 r (by norm_num) rfl rfl rfl rfl h1 h2⟩

/-- Decane, with 4752 mol/m³ at the densest, has an isotherm in a fit to saturation or flash data and none in a calculation. -/
example (P : ℝ → ℝ) : (∃ vs ps, arrays P IsothermOptions.saturation none 4752 = .ok (vs, ps)) ∧
    (∃ vs ps, arrays P IsothermOptions.flash none 4752 = .ok (vs, ps)) ∧
    ¬ ∃ vs ps, arrays P IsothermOptions.defaults none 4752 = .ok (vs, ps) := by
  refine ⟨(c179_exact_fitting P 4752 (by norm_num) (by norm_num)).1.2 ?_,
    (c179_exact_fitting P 4752 (by norm_num) (by norm_num)).2.2 ?_, ?_⟩
  · have a : ⌈((80000 : ℝ) / 4752 - 1 / (4752 / 80000 + 320)) / 1e-4⌉₊ ≤ 170000 := by rw [Nat.ceil_le]; norm_num
    have b : ⌈((4752 : ℝ) - 4752 / 80000) / 10⌉₊ ≤ 500 := by rw [Nat.ceil_le]; norm_num
    omega
  · have a : ⌈((300000 : ℝ) / 4752 - 1 / (4752 / 300000 + 320)) / 1e-4⌉₊ ≤ 640000 := by rw [Nat.ceil_le]; norm_num
    have b : ⌈((4752 : ℝ) - 4752 / 300000) / 10⌉₊ ≤ 500 := by rw [Nat.ceil_le]; norm_num
    omega
  · rintro ⟨vs, ps, h⟩
    rw [c179_refused P 4752 (by norm_num) (.inl (by norm_num))] at h
    cases h

end Verif.Props
