import Verif.Props.IsothermWindow
import Verif.Model.PropertyRow
import Verif.Model.Parallel

/-!
# C179: what fluids without an isotherm give in the other calculations
-/

namespace Verif.Props
open Verif

section
variable (n : ℕ) (num : ℝ → ℚ) (curve : ℝ → Except PyErr (List ℝ × List ℝ))
  (iso : ℝ × ℝ → List ℝ × List ℝ → PhaseDensity.Iso ℝ) (err : ℝ × ℝ → ℝ → Except PyErr (Ext ℝ))
  (fug : ℝ × ℝ → Option ℝ → Except PyErr (List (Option ℝ)))
  (solub : CalcTypes.Num → ℝ × ℝ → Except PyErr CalcTypes.Num)
  (tests : ℚ → ℝ × ℝ → Except PyErr (CalcTypes.Num × CalcTypes.Num × List CalcTypes.Num))

/-- **C179** (other rows): an isotherm that is refused leaves a row of NaN with flag 3 in the calculations of liquid and vapour
properties and of the solubility parameter; the test of the equation of state raises the exception. -/
theorem c179_refused_rows (x : ℝ × ℝ) (e : PyErr) (h : curve x.2 = .error e) :
    PropertyRow.liquidRow n num curve iso err fug x = .ok [.scal none, .vec (List.replicate n none), .scal (some 3)] ∧
    PropertyRow.vaporRow n num curve iso err fug x = .ok [.scal none, .vec (List.replicate n none), .scal (some 3)] ∧
    PropertyRow.solubilityRow num curve iso err solub x = .ok [.scal none, .scal (some 3), .scal none] ∧
    PropertyRow.verifyRow num curve iso err tests x = .error e := by
  refine ⟨?_, ?_, ?_, ?_⟩
  · simp only [PropertyRow.liquidRow, CalcTypes.propertyJob, PropertyRow.density, h, CalcTypes.nans, CalcTypes.flag3]
  · simp only [PropertyRow.vaporRow, CalcTypes.propertyJob, PropertyRow.density, h, CalcTypes.nans, CalcTypes.flag3]
  · simp only [PropertyRow.solubilityRow, CalcTypes.solubilityJob, PropertyRow.density, h, Except.map, bind, Except.bind,
      CalcTypes.flag3]
  · simp only [PropertyRow.verifyRow, CalcTypes.verifyJob, CalcTypes.verifyPhase, PropertyRow.density, h, Except.map, bind,
      Except.bind]

/-- **C179** (rows of liquids): with an isotherm the row has the density, the coefficients at it and the flag; flag 3 goes with two
NaN, whatever the number of components. -/
theorem c179_liquid_row (x : ℝ × ℝ) (vs ps : List ℝ) (h : curve x.2 = .ok (vs, ps)) (ρ : Option ℝ) (f : ℕ)
    (hd : DensityReach.liquidDensity (iso x (vs, ps.map fun p => p - x.1)) (err x) = .ok (ρ, f)) :
    (f = 3 → PropertyRow.liquidRow n num curve iso err fug x =
      .ok [.scal (ρ.map num), .vec [none, none], .scal (some 3)]) ∧
    (f ≠ 3 → ∀ φ, fug x ρ = .ok φ → PropertyRow.liquidRow n num curve iso err fug x =
      .ok [.scal (ρ.map num), .vec (φ.map (Option.map num)), .scal (some (f : ℚ))]) ∧
    (f ≠ 3 → ∀ e, fug x ρ = .error e → PropertyRow.liquidRow n num curve iso err fug x =
      .ok [.scal none, .vec (List.replicate n none), .scal (some 3)]) := by
  refine ⟨fun hf => ?_, fun hf φ hφ => ?_, fun hf e hφ => ?_⟩
  · subst hf
    simp [PropertyRow.liquidRow, CalcTypes.propertyJob, PropertyRow.density, h, hd, PhaseDensity.liquidFugacity]
  · simp [PropertyRow.liquidRow, CalcTypes.propertyJob, PropertyRow.density, h, hd, PhaseDensity.liquidFugacity, hf, hφ, bind,
      Except.bind]
  · simp [PropertyRow.liquidRow, CalcTypes.propertyJob, PropertyRow.density, h, hd, PhaseDensity.liquidFugacity, hf, hφ, bind,
      Except.bind, CalcTypes.nans, CalcTypes.flag3]

/-- **C179** (rows of vapours): likewise; flag 4 goes with coefficients 1 and the density 0. -/
theorem c179_vapor_row (x : ℝ × ℝ) (vs ps : List ℝ) (h : curve x.2 = .ok (vs, ps)) (ρ : Option ℝ) (f : ℕ)
    (hd : DensityReach.vaporDensity (iso x (vs, ps.map fun p => p - x.1)) (err x) = .ok (ρ, f)) :
    (f = 4 → PropertyRow.vaporRow n num curve iso err fug x =
      .ok [.scal (some (num 0)), .vec (List.replicate n (some (num 1))), .scal (some 4)]) ∧
    (f = 3 → PropertyRow.vaporRow n num curve iso err fug x =
      .ok [.scal (ρ.map num), .vec [none, none], .scal (some 3)]) ∧
    (f ≠ 3 → f ≠ 4 → ∀ φ, fug x ρ = .ok φ → PropertyRow.vaporRow n num curve iso err fug x =
      .ok [.scal (ρ.map num), .vec (φ.map (Option.map num)), .scal (some (f : ℚ))]) := by
  refine ⟨fun hf => ?_, fun hf => ?_, fun hf hf' φ hφ => ?_⟩
  · subst hf
    simp [PropertyRow.vaporRow, CalcTypes.propertyJob, PropertyRow.density, h, hd, PhaseDensity.vaporFugacity]
  · subst hf
    simp [PropertyRow.vaporRow, CalcTypes.propertyJob, PropertyRow.density, h, hd, PhaseDensity.vaporFugacity]
  · simp [PropertyRow.vaporRow, CalcTypes.propertyJob, PropertyRow.density, h, hd, PhaseDensity.vaporFugacity, hf, hf', hφ, bind,
      Except.bind]

/-- **C179** (the other two): with an isotherm the row of the solubility parameter has the density and flag of the liquid, and the
test of the equation of state looks at the density of the vapour and at that of the liquid. -/
theorem c179_solubility_verify_row (x : ℝ × ℝ) (vs ps : List ℝ) (h : curve x.2 = .ok (vs, ps)) (ρl ρv : ℝ) (fl fv : ℕ)
    (hl : DensityReach.liquidDensity (iso x (vs, ps.map fun p => p - x.1)) (err x) = .ok (some ρl, fl))
    (hv : DensityReach.vaporDensity (iso x (vs, ps.map fun p => p - x.1)) (err x) = .ok (some ρv, fv)) :
    (∀ δ, solub (some (num ρl)) x = .ok δ → PropertyRow.solubilityRow num curve iso err solub x =
      .ok [.scal (some (num ρl)), .scal (some (fl : ℚ)), .scal δ]) ∧
    (∀ a b φ c d ψ, tests (num ρv) x = .ok (a, b, φ) → tests (num ρl) x = .ok (c, d, ψ) →
      PropertyRow.verifyRow num curve iso err tests x =
        .ok [.scal a, .scal b, .scal (some (fv : ℚ)), .vec φ, .scal c, .scal d, .scal (some (fl : ℚ)), .vec ψ]) := by
  constructor
  · intro δ hδ
    simp [PropertyRow.solubilityRow, CalcTypes.solubilityJob, PropertyRow.density, h, hl, PropertyRow.entry, Except.map, bind,
      Except.bind, hδ, pure, Except.pure]
  · intro a b φ c d ψ h1 h2
    simp [PropertyRow.verifyRow, CalcTypes.verifyJob, CalcTypes.verifyPhase, PropertyRow.density, h, hl, hv, PropertyRow.entry,
      Except.map, bind, Except.bind, h1, h2, pure, Except.pure]

/-- **C179 violated** (test of the equation of state): for a substance with a critical temperature above 2.78027e-4 K per Pa of its
critical pressure, such as decane, a batch of `verify_eos` with the default options stops with a ValueError at the first point,
while the properties of the liquid and of the vapour are NaN at every pressure and temperature. -/
theorem c179_violated_verify (Tc Pc : ℝ) (p : ℝ → PengRobinson.Par 1) (hT : 0 < Tc) (hP : 0 < Pc)
    (hb : ∀ T, (p T).bi 0 = 0.07779607 * (SaftEnergy.R * Tc / Pc)) (h : 2.78027e-4 * Pc < Tc) (x : ℝ × ℝ) (xs : List (ℝ × ℝ)) :
    Parallel.serialJob (PropertyRow.verifyRow num
      (fun T => IsothermOptions.cubic IsothermOptions.defaults T (p T) fun _ => 1) iso err tests) (x :: xs) = .error .valueError ∧
    PropertyRow.liquidRow 1 num (fun T => IsothermOptions.cubic IsothermOptions.defaults T (p T) fun _ => 1) iso err fug x =
      .ok [.scal none, .vec [none], .scal (some 3)] ∧
    PropertyRow.vaporRow 1 num (fun T => IsothermOptions.cubic IsothermOptions.defaults T (p T) fun _ => 1) iso err fug x =
      .ok [.scal none, .vec [none], .scal (some 3)] := by
  obtain ⟨h1, h2, _, h4⟩ := c179_refused_rows 1 num (fun T => IsothermOptions.cubic IsothermOptions.defaults T (p T) fun _ => 1)
    iso err fug (fun _ _ => .error .valueError) tests x _ ((c179_violated_cubic x.2 Tc Pc (p x.2) hT hP (hb x.2)).1 h)
  refine ⟨?_, h1, h2⟩
  simp only [Parallel.serialJob, Parallel.runChunk, h4]

end

/-- Not vacuous: a spline with a root that is NaN gives flag 3 and, for one component, two NaN. -/
example (num : ℝ → ℚ) (err : ℝ × ℝ → ℝ → Except PyErr (Ext ℝ)) :
    PropertyRow.liquidRow 1 num (fun _ => .ok ([1, 2], [3, 4]))
      (fun _ _ => ⟨true, [], [], fun _ => 0, 1, 0, 0, 1, 1, 1, fun _ => 0, 1, 1, fun _ _ _ => .ok 1, fun _ _ => .ok 1⟩) err
      (fun _ _ => .ok [some 0.5]) (1e5, 300) = .ok [.scal none, .vec [none, none], .scal (some 3)] :=
  (c179_liquid_row 1 num _ _ err _ (1e5, 300) [1, 2] [3, 4] rfl none 3 (by
    simp [DensityReach.liquidDensity, PhaseDensity.liquidSeed, bind, Except.bind])).1 rfl

end Verif.Props
