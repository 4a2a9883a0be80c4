import Verif.Model.DensityReach
import Verif.Props.SaftEnergy
import Verif.Props.MiePotential
import Mathlib.Analysis.Real.Pi.Bounds
import Mathlib.Tactic.Linarith
import Mathlib.Tactic.NormNum
import Mathlib.Tactic.Positivity

/-! # C178: the densities that the searches ask for and those that SAFT accepts -/

namespace Verif.Props
open Verif Verif.PhaseDensity Verif.SaftEnergy Verif.Saft

variable {n m : ℕ}

/-- **C178** (length): the largest density is asked of the variant only for a composition with one entry per component. -/
theorem c178_length (n len : ℕ) (source : ℝ → ℝ) (z : ℝ) :
    (len = n → DensityReach.densityMax n len source z = .ok (source z)) ∧
      (len ≠ n → DensityReach.densityMax n len source z = .error .valueError) := by
  unfold DensityReach.densityMax
  exact ⟨fun h => by simp [h], fun h => by simp [h]⟩

example : DensityReach.densityMax 2 2 (fun z => z * 30000) 0.5 = .ok (0.5 * 30000) := (c178_length _ _ _ _).1 rfl
example : DensityReach.densityMax 2 3 (fun z => z * 30000) 0.5 = .error .valueError := (c178_length _ _ _ _).2 (by decide)

/-- **C178** (the same searches): where the equation of state gives a number everywhere, these are the searches of C33. -/
theorem c178_agree (I : Iso ℝ) (err : ℝ → Except PyErr (Ext ℝ)) (h : ∀ ρ, err ρ = .ok (.fin (I.err ρ))) :
    DensityReach.liquidDensity I err = PhaseDensity.liquidDensity I ∧
      DensityReach.vaporDensity I err = PhaseDensity.vaporDensity I := by
  have hl : ∀ b ρ, DensityReach.liquidRefine I err b ρ = PhaseDensity.liquidRefine I b ρ := by
    intro b ρ
    simp [DensityReach.liquidRefine, PhaseDensity.liquidRefine, h, bind, Except.bind, Ext.mul, Ext.lt]
  have hv : ∀ b ρ, DensityReach.vaporRefine I err b ρ = PhaseDensity.vaporRefine I b ρ := by
    intro b ρ
    simp [DensityReach.vaporRefine, PhaseDensity.vaporRefine, h, bind, Except.bind, Ext.mul, Ext.lt]
  constructor
  · simp only [DensityReach.liquidDensity, PhaseDensity.liquidDensity, hl, bind, Except.bind]
    rcases liquidSeed I with e | ⟨⟨_ | ρ, f⟩, b⟩ <;> rfl
  · simp only [DensityReach.vaporDensity, PhaseDensity.vaporDensity, hv, bind, Except.bind]
    rcases vaporSeed I with e | ⟨⟨_ | ρ, f⟩, b⟩ <;> rfl

/-- The largest density is proportional to the packing fraction. -/
theorem densityMax_scale (M C : ℝ) (w d : Fin m → Fin m → ℝ) (z : ℝ) : densityMax M C w d z = z * densityMax M C w d 1 := by
  unfold densityMax
  ring

theorem stencil_step {ρ : ℝ} (h : SaftEnergy.eps ≤ ρ * 1e-6) : pressureStep 1e-6 ρ = ρ * 1e-6 := by
  unfold pressureStep
  rw [if_neg (not_lt.2 h)]

/-- **C178** (Mie fluid): at every density that a search can ask about, up to one percent above the packing fraction 0.99 of its
bounds, both densities of the difference quotient are below close packing, and the monomer term gives two energies. -/
theorem c178_mie (M T ρ : ℝ) (P : MieTerms.Mie n m) (xi : List (Option ℝ)) (hρ : SaftEnergy.eps ≤ ρ * 1e-6)
    (h : ρ ≤ 101 / 100 * densityMax M (cmol2seg P.g (DensityReach.fractions xi)) (xskl P.g (DensityReach.fractions xi)) (MieTerms.dkl P T) 0.99) :
    ρ + pressureStep 1e-6 ρ < densityMax M (cmol2seg P.g (DensityReach.fractions xi)) (xskl P.g (DensityReach.fractions xi)) (MieTerms.dkl P T) 1 ∧
    ∃ a b, DensityReach.mieMonomer M P [ρ + pressureStep 1e-6 ρ, ρ - pressureStep 1e-6 ρ] T xi = .ok [.fin a, .fin b] := by
  have he := machEps_pos
  have h0 : 0 < ρ := by
    by_contra hn
    have : ρ * 1e-6 ≤ 0 := mul_nonpos_of_nonpos_of_nonneg (not_lt.1 hn) (by norm_num)
    linarith
  rw [densityMax_scale] at h
  rw [stencil_step hρ]
  have h1 : ρ + ρ * 1e-6 < densityMax M (cmol2seg P.g (DensityReach.fractions xi)) (xskl P.g (DensityReach.fractions xi)) (MieTerms.dkl P T) 1 := by
    generalize densityMax M (cmol2seg P.g (DensityReach.fractions xi)) (xskl P.g (DensityReach.fractions xi)) (MieTerms.dkl P T) 1 = D at *
    norm_num at h ⊢
    linarith
  refine ⟨h1, ?_⟩
  have h2 : ¬ (ρ - ρ * 1e-6 < 0) := by norm_num; linarith
  have h3 : ¬ (ρ + ρ * 1e-6 < 0) := by norm_num; linarith
  unfold DensityReach.mieMonomer MieTerms.amonomer
  rw [if_neg (by simp [h1]), if_neg (by simp only [List.any_cons, List.any_nil, h2, h3]; simp)]
  exact ⟨_, _, rfl⟩

/-- **C178** (square-well fluid): the monomer term refuses the difference quotient exactly when the lower of its two densities is
above the packing fraction 0.65. -/
theorem c178_square_well (M T ρ : ℝ) (P : SWTerms.SWell n m) (xi : List (Option ℝ)) (hρ : SaftEnergy.eps ≤ ρ * 1e-6) :
    (densityMax M (cmol2seg P.g (DensityReach.fractions xi)) (xskl P.g (DensityReach.fractions xi)) P.σ 0.65 < ρ - ρ * 1e-6 →
      DensityReach.swMonomer M P [ρ + pressureStep 1e-6 ρ, ρ - pressureStep 1e-6 ρ] T xi = .error .valueError) ∧
    (ρ - ρ * 1e-6 ≤ densityMax M (cmol2seg P.g (DensityReach.fractions xi)) (xskl P.g (DensityReach.fractions xi)) P.σ 0.65 →
      ∃ a b, DensityReach.swMonomer M P [ρ + pressureStep 1e-6 ρ, ρ - pressureStep 1e-6 ρ] T xi = .ok [.fin a, .fin b]) := by
  have he := machEps_pos
  have h0 : 0 < ρ := by
    by_contra hn
    have : ρ * 1e-6 ≤ 0 := mul_nonpos_of_nonpos_of_nonneg (not_lt.1 hn) (by norm_num)
    linarith
  rw [stencil_step hρ]
  have h2 : ¬ (ρ - ρ * 1e-6 < 0) := by norm_num; linarith
  have h3 : ¬ (ρ + ρ * 1e-6 < 0) := by norm_num; linarith
  constructor
  · intro h
    have h4 : densityMax M (cmol2seg P.g (DensityReach.fractions xi)) (xskl P.g (DensityReach.fractions xi)) P.σ 0.65 < ρ + ρ * 1e-6 := by
      have : 0 < ρ * 1e-6 := by linarith
      linarith
    unfold DensityReach.swMonomer SWTerms.amonomer
    rw [if_pos (by simp only [List.all_cons, List.all_nil, h, h4]; simp)]
  · intro h
    unfold DensityReach.swMonomer SWTerms.amonomer
    rw [if_neg (by
      have : ¬ densityMax M (cmol2seg P.g (DensityReach.fractions xi)) (xskl P.g (DensityReach.fractions xi)) P.σ 0.65 < ρ - ρ * 1e-6 := not_lt.2 h
      simp only [List.all_cons, List.all_nil, this]; simp),
      if_neg (by simp only [List.any_cons, List.any_nil, h2, h3]; simp)]
    exact ⟨_, _, rfl⟩

/-- **C178** (grid): every density of the isotherm, which ends at the packing fraction 0.65, is accepted by the square-well fluid. -/
theorem c178_grid_partial (M T ρ : ℝ) (P : SWTerms.SWell n m) (xi : List (Option ℝ)) (hρ : SaftEnergy.eps ≤ ρ * 1e-6)
    (h : ρ ≤ densityMax M (cmol2seg P.g (DensityReach.fractions xi)) (xskl P.g (DensityReach.fractions xi)) P.σ 0.65) :
    ∃ a b, DensityReach.swMonomer M P [ρ + pressureStep 1e-6 ρ, ρ - pressureStep 1e-6 ρ] T xi = .ok [.fin a, .fin b] := by
  have he := machEps_pos
  exact (c178_square_well M T ρ P xi hρ).2 (by linarith)

/-- **C178** (refusal): beyond that, the pressure of the square-well fluid raises ValueError, whatever the other contributions are. -/
theorem c178_refused (M Pset T ρ : ℝ) (P : SWTerms.SWell n m) (E : Eos) (xi : List (Option ℝ)) (r : List Contribution)
    (hE : E.res = DensityReach.swMonomer M P :: r) (hρ : SaftEnergy.eps ≤ ρ * 1e-6)
    (h : densityMax M (cmol2seg P.g (DensityReach.fractions xi)) (xskl P.g (DensityReach.fractions xi)) P.σ 0.65 < ρ - ρ * 1e-6) :
    DensityReach.splineError E Pset T xi ρ = .error .valueError := by
  have he := machEps_pos
  have h0 : 0 < ρ := by
    by_contra hn
    have : ρ * 1e-6 ≤ 0 := mul_nonpos_of_nonpos_of_nonneg (not_lt.1 hn) (by norm_num)
    linarith
  have hm := (c178_square_well M T ρ P xi hρ).1 h
  have hd1 : density (.vec ([ρ].map some)) = .ok [ρ] := density_vec [ρ] (by simp) (by simpa using h0.le)
  have hst : CentralDiff.steps SaftEnergy.eps 1e-6 true [ρ] = [pressureStep 1e-6 ρ] := by
    simp [CentralDiff.steps, pressureStep]
  have hd2 : density (.vec ([ρ + pressureStep 1e-6 ρ, ρ - pressureStep 1e-6 ρ].map some))
      = .ok [ρ + pressureStep 1e-6 ρ, ρ - pressureStep 1e-6 ρ] := by
    refine density_vec _ (by simp) ?_
    have h1 := stencil_step hρ
    intro v hv
    simp only [List.mem_cons, List.not_mem_nil, or_false] at hv
    rcases hv with rfl | rfl
    · rw [h1]; norm_num; linarith
    · rw [h1]; norm_num; linarith
  have hres : SaftEnergy.residual E [ρ + pressureStep 1e-6 ρ, ρ - pressureStep 1e-6 ρ] T xi = .error .valueError := by
    unfold SaftEnergy.residual
    rw [hd2, hE]
    by_cases h1 : xi.length = E.n
    · by_cases h2 : xi.any negative = true
      · simp [h1, h2, bind, Except.bind]
      · simp [h1, h2, bind, Except.bind, addAll, hm]
    · simp [h1, bind, Except.bind]
  have hhel : helmholtz E [ρ + pressureStep 1e-6 ρ, ρ - pressureStep 1e-6 ρ] T xi = .error .valueError := by
    unfold helmholtz
    rw [hd2]
    by_cases h1 : xi.length = E.n
    · simp [h1, bind, Except.bind, hres]
    · simp [h1, bind, Except.bind]
  have hp : pressure E [ρ] T xi 1e-6 = .error .valueError := by
    unfold pressure
    rw [hd1]
    by_cases h1 : xi.length = E.n
    · simp [h1, bind, Except.bind, hst, hhel]
    · simp [h1, bind, Except.bind]
  unfold DensityReach.splineError
  rw [hp]
  rfl

/-- **C178 violated** (compressed liquid): at a pressure above the isotherm of a square-well fluid the search for the liquid starts
half way to the packing fraction 0.99, where the pressure is refused; the search always reports that there is no fluid. -/
theorem c178_violated_compressed (M Pset T : ℝ) (P : SWTerms.SWell n m) (E : Eos) (xi : List (Option ℝ)) (r : List Contribution)
    (hE : E.res = DensityReach.swMonomer M P :: r) (I : Iso ℝ) (err : ℝ → Except PyErr (Ext ℝ))
    (hnan : I.nanRoot = false) (hroots : I.roots = []) (hend : I.spline I.endDensity ≠ 0)
    (hbig : 20 ≤ densityMax M (cmol2seg P.g (DensityReach.fractions xi)) (xskl P.g (DensityReach.fractions xi)) P.σ 0.65)
    (hmax : I.rhoMax = densityMax M (cmol2seg P.g (DensityReach.fractions xi)) (xskl P.g (DensityReach.fractions xi)) P.σ 0.99)
    (hgrid : densityMax M (cmol2seg P.g (DensityReach.fractions xi)) (xskl P.g (DensityReach.fractions xi)) P.σ 0.65 - 5 ≤ I.rhoFirst)
    (hlsq : ∀ x lo hi e, DensityReach.splineError E Pset T xi x = .error e → ∃ e', I.lsq x lo hi = .error e') :
    DensityReach.liquidDensity I err = .ok (none, 3) := by
  have he : SaftEnergy.eps ≤ 1e-6 := by unfold SaftEnergy.eps; norm_num
  have h9 : I.rhoMax = 99 / 65 * densityMax M (cmol2seg P.g (DensityReach.fractions xi)) (xskl P.g (DensityReach.fractions xi)) P.σ 0.65 := by
    rw [hmax, densityMax_scale, densityMax_scale M _ _ _ 0.65]; ring
  have hr := c178_refused M Pset T ((I.rhoFirst + I.rhoMax) / 2) P E xi r hE
    (by
      rw [h9]
      generalize densityMax M (cmol2seg P.g (DensityReach.fractions xi)) (xskl P.g (DensityReach.fractions xi)) P.σ 0.65 = L at *
      norm_num at he ⊢
      linarith)
    (by
      rw [h9]
      generalize densityMax M (cmol2seg P.g (DensityReach.fractions xi)) (xskl P.g (DensityReach.fractions xi)) P.σ 0.65 = L at *
      norm_num
      linarith)
  obtain ⟨e', he'⟩ := hlsq _ I.rhoFirst I.rhoMax _ hr
  have hs : liquidSeed I = .ok ((none, 3), true) := by
    simp [liquidSeed, hnan, hroots, hend, he']
  simp [DensityReach.liquidDensity, hs, bind, Except.bind]

/-- **C178 violated** (edge of the isotherm): a density found within one percent of the packing fraction 0.65 is refined with the
pressure one percent above it, which the square-well fluid refuses, so that the search for a liquid or for a single fluid ends with
an exception. -/
theorem c178_violated_edge (M Pset T : ℝ) (P : SWTerms.SWell n m) (E : Eos) (xi : List (Option ℝ)) (r : List Contribution)
    (hE : E.res = DensityReach.swMonomer M P :: r) (I : Iso ℝ) (ρ : ℝ) (f : ℕ) (b : Bool) (hρ : 1 ≤ ρ)
    (hmax : I.rhoMax = densityMax M (cmol2seg P.g (DensityReach.fractions xi)) (xskl P.g (DensityReach.fractions xi)) P.σ 0.99)
    (hlo : ρ ≤ densityMax M (cmol2seg P.g (DensityReach.fractions xi)) (xskl P.g (DensityReach.fractions xi)) P.σ 0.65)
    (hhi : densityMax M (cmol2seg P.g (DensityReach.fractions xi)) (xskl P.g (DensityReach.fractions xi)) P.σ 0.65 < 1.0099 * ρ) :
    (liquidSeed I = .ok ((some ρ, f), b) → f = 1 ∨ f = 2 →
      ∃ e, DensityReach.liquidDensity I (DensityReach.splineError E Pset T xi) = .error e ∧
        ∀ v, DensityReach.splineError E Pset T xi (ρ * (99 / 100)) = .ok v → e = .valueError) ∧
    (vaporSeed I = .ok ((some ρ, f), b) → f = 0 ∨ f = 2 →
      ∃ e, DensityReach.vaporDensity I (DensityReach.splineError E Pset T xi) = .error e ∧
        ∀ v, DensityReach.splineError E Pset T xi (ρ * (99 / 100)) = .ok v → e = .valueError) := by
  have he : SaftEnergy.eps ≤ 1e-6 := by unfold SaftEnergy.eps; norm_num
  have h9 : I.rhoMax = 99 / 65 * densityMax M (cmol2seg P.g (DensityReach.fractions xi)) (xskl P.g (DensityReach.fractions xi)) P.σ 0.65 := by
    rw [hmax, densityMax_scale, densityMax_scale M _ _ _ 0.65]; ring
  have hr := c178_refused M Pset T (ρ * (101 / 100)) P E xi r hE
    (by norm_num at he ⊢; linarith)
    (by
      generalize densityMax M (cmol2seg P.g (DensityReach.fractions xi)) (xskl P.g (DensityReach.fractions xi)) P.σ 0.65 = L at *
      norm_num at hhi ⊢
      linarith)
  have hcap : ¬ I.rhoMax < ρ * (101 / 100) := by
    rw [h9]
    generalize densityMax M (cmol2seg P.g (DensityReach.fractions xi)) (xskl P.g (DensityReach.fractions xi)) P.σ 0.65 = L at *
    linarith
  constructor
  · intro hs hf
    rcases hv : DensityReach.splineError E Pset T xi (ρ * (99 / 100)) with e | v
    · exact ⟨e, by simp [DensityReach.liquidDensity, hs, hf, bind, Except.bind, DensityReach.liquidRefine, hv], by simp⟩
    · exact ⟨.valueError, by simp [DensityReach.liquidDensity, hs, hf, bind, Except.bind, DensityReach.liquidRefine, hv, hr], by simp⟩
  · intro hs hf
    rcases hv : DensityReach.splineError E Pset T xi (ρ * (99 / 100)) with e | v
    · exact ⟨e, by simp [DensityReach.vaporDensity, hs, hf, bind, Except.bind, DensityReach.vaporRefine, hv], by simp⟩
    · exact ⟨.valueError, by simp [DensityReach.vaporDensity, hs, hf, bind, Except.bind, DensityReach.vaporRefine, hv, hr, hcap], by simp⟩

/-! ## Concrete fluids -/

/-- Spheres of 0.4 nm with a square well. -/
noncomputable def wellSphere : SWTerms.SWell 1 1 where
  g := ⟨fun _ _ => 1, fun _ => 1, fun _ => 1⟩
  ε := fun _ _ => 200
  σ := fun _ _ => 0.4
  lam := fun _ _ => 1.5
  rings := fun _ => 0

/-- The largest density of the spheres. -/
theorem wellSphere_max (z : ℝ) : densityMax moleculePerNm3 (cmol2seg wellSphere.g (DensityReach.fractions [some 1]))
    (xskl wellSphere.g (DensityReach.fractions [some 1])) wellSphere.σ z = z * (6 / (Real.pi * 0.4 ^ 3) / moleculePerNm3) := by
  simp [densityMax, cmol2seg, xskl, xsk, wellSphere, DensityReach.fractions]
  ring

/-- At the packing fraction 0.65 it lies between 30000 and 40000 mol/m³. -/
theorem wellSphere_limit : 30000 < densityMax moleculePerNm3 (cmol2seg wellSphere.g (DensityReach.fractions [some 1]))
      (xskl wellSphere.g (DensityReach.fractions [some 1])) wellSphere.σ 0.65 ∧
    densityMax moleculePerNm3 (cmol2seg wellSphere.g (DensityReach.fractions [some 1]))
      (xskl wellSphere.g (DensityReach.fractions [some 1])) wellSphere.σ 0.65 < 40000 := by
  rw [wellSphere_max]
  have h1 := Real.pi_gt_three
  have h2 := Real.pi_lt_d2
  have hM : moleculePerNm3 = 6.02214086e-4 := rfl
  rw [hM]
  constructor
  · rw [div_div, mul_div_assoc', lt_div_iff₀ (by positivity)]
    norm_num at h2 ⊢
    linarith
  · rw [div_div, mul_div_assoc', div_lt_iff₀ (by positivity)]
    norm_num
    linarith

/-- The equation of state of the spheres. -/
noncomputable def wellEos : Eos := ⟨1, [0.03], "Abroglie", [DensityReach.swMonomer moleculePerNm3 wellSphere], none⟩

/-- An isotherm with the given roots and densest point, a single fluid. -/
noncomputable def topIso (roots : List ℝ) (top : ℝ) : Iso ℝ where
  nanRoot := false
  roots := roots
  extrema := []
  spline := fun _ => -1
  endDensity := 1
  minP := 0
  firstP := 0
  vroot := 1
  rhoFirst := top
  rhoMax := densityMax moleculePerNm3 (cmol2seg wellSphere.g (DensityReach.fractions [some 1]))
    (xskl wellSphere.g (DensityReach.fractions [some 1])) wellSphere.σ 0.99
  err := fun _ => 0
  P := 1e9
  feps := 0
  lsq := fun x _ _ => match DensityReach.splineError wellEos 1e9 300 [some 1] x with
    | .error e => .error e
    | .ok _ => .ok x
  brentq := fun a _ => .ok a

/-- The spheres at a pressure above the isotherm. -/
example : DensityReach.liquidDensity (topIso [] (densityMax moleculePerNm3 (cmol2seg wellSphere.g (DensityReach.fractions [some 1]))
    (xskl wellSphere.g (DensityReach.fractions [some 1])) wellSphere.σ 0.65 - 3)) (DensityReach.splineError wellEos 1e9 300 [some 1])
      = .ok (none, 3) :=
  c178_violated_compressed moleculePerNm3 1e9 300 wellSphere wellEos [some 1] [] rfl _ _ rfl rfl (by norm_num [topIso])
    (by have := wellSphere_limit.1; linarith) rfl (by simp only [topIso]; linarith)
    (by intro x lo hi e h; exact ⟨e, by simp [topIso, h]⟩)

/-- The spheres at a density just below the end of the isotherm. -/
example : ∃ ρ : ℝ, 29000 < ρ ∧ ∃ e, DensityReach.liquidDensity (topIso [1 / ρ] ρ) (DensityReach.splineError wellEos 1e9 300 [some 1])
    = .error e := by
  have h := wellSphere_limit
  set L := densityMax moleculePerNm3 (cmol2seg wellSphere.g (DensityReach.fractions [some 1]))
      (xskl wellSphere.g (DensityReach.fractions [some 1])) wellSphere.σ 0.65 with hL
  refine ⟨L * 0.995, by norm_num; linarith, ?_⟩
  obtain ⟨e, he, -⟩ := (c178_violated_edge moleculePerNm3 1e9 300 wellSphere wellEos [some 1] [] rfl (topIso [1 / (L * 0.995)] (L * 0.995))
    (L * 0.995) 2 false (by norm_num; linarith) rfl (by rw [← hL]; norm_num; linarith) (by rw [← hL]; norm_num; linarith)).1
    (by simp [liquidSeed, topIso, oneRoot, bind, Except.bind]) (.inr rfl)
  exact ⟨e, he⟩

/-- In the middle of the isotherm the difference quotient is accepted. -/
example : ∃ a b, DensityReach.swMonomer moleculePerNm3 wellSphere [15000 + pressureStep 1e-6 15000, 15000 - pressureStep 1e-6 15000] 300 [some 1]
    = .ok [.fin a, .fin b] :=
  c178_grid_partial moleculePerNm3 300 15000 wellSphere [some 1] (by unfold SaftEnergy.eps; norm_num)
    (by have := wellSphere_limit.1; linarith)

/-- Lennard-Jones spheres of 0.4 nm. -/
noncomputable def mieSphere : MieTerms.Mie 1 1 where
  g := ⟨fun _ _ => 1, fun _ => 1, fun _ => 1⟩
  ε := fun _ _ => 200
  σ := fun _ _ => 0.4
  lr := fun _ _ => 12
  la := fun _ _ => 6
  bε := fun _ => 200
  bσ := fun _ => 0.4
  blr := fun _ => 12
  bla := fun _ => 6
  rings := fun _ => 0

/-- They accept 40000 mol/m³, which the square-well spheres of the same size refuse. -/
example : (∃ a b, DensityReach.mieMonomer moleculePerNm3 mieSphere [40000 + pressureStep 1e-6 40000, 40000 - pressureStep 1e-6 40000] 300
      [some 1] = .ok [.fin a, .fin b]) ∧
    DensityReach.splineError wellEos 1e9 300 [some 1] 41000 = .error .valueError := by
  refine ⟨(c178_mie moleculePerNm3 300 40000 mieSphere [some 1] (by unfold SaftEnergy.eps; norm_num) ?_).2,
    c178_refused moleculePerNm3 1e9 300 41000 wellSphere wellEos [some 1] [] rfl (by unfold SaftEnergy.eps; norm_num)
      (by have := wellSphere_limit.2; norm_num at this ⊢; linarith)⟩
  have hd : MieTerms.dk mieSphere 300 0 < 0.4 :=
    c60_diameter_lt_sigma _ _ _ _ _ (by norm_num [mieSphere]) (by norm_num [mieSphere]) (by norm_num) (by norm_num [mieSphere])
      (by norm_num [mieSphere])
  have hd0 : 0 < MieTerms.dk mieSphere 300 0 :=
    c60_diameter_pos _ _ _ _ _ (by norm_num [mieSphere]) (by norm_num [mieSphere]) (by norm_num) (by norm_num [mieSphere])
      (by norm_num [mieSphere])
  have hmax : densityMax moleculePerNm3 (cmol2seg mieSphere.g (DensityReach.fractions [some 1]))
      (xskl mieSphere.g (DensityReach.fractions [some 1])) (MieTerms.dkl mieSphere 300) 0.99
        = 0.99 * 6 / (Real.pi * MieTerms.dk mieSphere 300 0 ^ 3) / moleculePerNm3 := by
    simp [densityMax, cmol2seg, xskl, xsk, MieTerms.dkl, dklOf, DensityReach.fractions, mieSphere]
  rw [hmax, show moleculePerNm3 = 6.02214086e-4 from rfl, div_div]
  have h3 : MieTerms.dk mieSphere 300 0 ^ 3 ≤ 0.4 ^ 3 := pow_le_pow_left₀ hd0.le hd.le 3
  have h4 := Real.pi_lt_d2
  have h5 : Real.pi * MieTerms.dk mieSphere 300 0 ^ 3 ≤ 3.15 * 0.4 ^ 3 :=
    mul_le_mul h4.le h3 (pow_nonneg hd0.le 3) (by norm_num)
  have h6 : 0 < Real.pi * MieTerms.dk mieSphere 300 0 ^ 3 := mul_pos Real.pi_pos (pow_pos hd0 3)
  rw [mul_div_assoc', le_div_iff₀ (mul_pos h6 (by norm_num))]
  norm_num at h5 ⊢
  linarith

/-- **C178** (error of the refinement): it is the pressure minus the wanted one, and an exception of the pressure is one of
the refinement. -/
theorem c178_error (E : Eos) (Pset T : ℝ) (xi : List (Option ℝ)) (ρ : ℝ) :
    (∀ p, pressure E [ρ] T xi 1e-6 = .ok [.fin p] → DensityReach.splineError E Pset T xi ρ = .ok (.fin (p - Pset))) ∧
      ∀ e, pressure E [ρ] T xi 1e-6 = .error e → DensityReach.splineError E Pset T xi ρ = .error e := by
  constructor
  · intro p hp
    simp only [DensityReach.splineError, hp, bind, Except.bind]
    simp [Ext.sub, Ext.add, Ext.neg, sub_eq_add_neg]
  · intro e he
    simp only [DensityReach.splineError, he, bind, Except.bind]

end Verif.Props
