import Verif.Props.IsothermWindow
import Verif.Model.SaturationRow

/-!
# C179: what fluids without an isotherm give in a batch of saturation calculations
-/

namespace Verif.Props
open Verif

/-- An isotherm that is refused leaves a row of NaN and no exception. -/
theorem c179_refused_row (E : Saturation.Ext ℝ) (tol pconv : ℝ) (num : ℝ → ℚ) (curve : ℝ → Except PyErr (List ℝ × List ℝ))
    (T : ℝ) (e : PyErr) (h : curve T = .error e) :
    SaturationRow.row E tol pconv num curve T = .ok [.scal none, .scal none, .scal none] := by
  have hp : Saturation.checkPure [(1 : ℝ)] = .ok () := by
    simp [Saturation.checkPure]
  simp only [SaturationRow.row, CalcTypes.saturationJob, Saturation.saturation, hp, h, Except.map]

/-- A result of the calculation is the row: pressure, density of the liquid, density of the vapour; no result is NaN. -/
theorem c179_row (E : Saturation.Ext ℝ) (tol pconv : ℝ) (num : ℝ → ℚ) (curve : ℝ → Except PyErr (List ℝ × List ℝ))
    (T : ℝ) (vs ps : List ℝ) (h : curve T = .ok (vs, ps)) :
    (∀ P l v, Saturation.saturation E tol pconv [1] (.ok (vs, ps.map some)) = .ok (some (P, l, v)) →
      SaturationRow.row E tol pconv num curve T = .ok [.scal (some (num P)), .scal (some (num l)), .scal (some (num v))]) ∧
    ((∀ r, Saturation.saturation E tol pconv [1] (.ok (vs, ps.map some)) ≠ .ok (some r)) →
      SaturationRow.row E tol pconv num curve T = .ok [.scal none, .scal none, .scal none]) := by
  constructor
  · intro P l v hs
    simp only [SaturationRow.row, CalcTypes.saturationJob, h, Except.map, hs]
  · intro hs
    rcases hr : Saturation.saturation E tol pconv [1] (.ok (vs, ps.map some)) with e | r
    · simp only [SaturationRow.row, CalcTypes.saturationJob, h, Except.map, hr]
    · rcases r with _ | r
      · simp only [SaturationRow.row, CalcTypes.saturationJob, h, Except.map, hr]
      · exact absurd hr (hs r)

/-- **C179 violated** (saturation with the cubic equation): for a substance with a critical temperature above 2.78027e-4 K per Pa of its
critical pressure, such as decane, every row of a saturation calculation with the default options is NaN, at every temperature
and whatever the solvers return. -/
theorem c179_violated_rows (E : Saturation.Ext ℝ) (tol pconv : ℝ) (num : ℝ → ℚ) (Tc Pc : ℝ) (p : ℝ → PengRobinson.Par 1)
    (hT : 0 < Tc) (hP : 0 < Pc) (hb : ∀ T, (p T).bi 0 = 0.07779607 * (SaftEnergy.R * Tc / Pc)) (h : 2.78027e-4 * Pc < Tc) (T : ℝ) :
    SaturationRow.row E tol pconv num (fun T => IsothermOptions.cubic IsothermOptions.defaults T (p T) fun _ => 1) T =
      .ok [.scal none, .scal none, .scal none] :=
  c179_refused_row E tol pconv num _ T _ ((c179_violated_cubic T Tc Pc (p T) hT hP (hb T)).1 h)

/-- **C179 violated** (saturation with SAFT): likewise for a molecule whose segments take more than 0.41192 nm³ or less than 0.0206
nm³ at all temperatures. -/
theorem c179_violated_saft_rows {m : ℕ} (E : Saturation.Ext ℝ) (tol pconv : ℝ) (num : ℝ → ℚ) (P : ℝ → ℝ → ℝ)
    (g : Saft.Groups 1 m) (d : ℝ → Fin m → Fin m → ℝ) (V : ℝ → ℝ) (h0 : ∀ T, 0 < V T)
    (hV : ∀ T, Saft.cmol2seg g (fun _ => 1) * ∑ k, ∑ l, Saft.xskl g (fun _ => 1) k l * d T k l ^ 3 = V T)
    (h : ∀ T, 0.41192 < V T ∨ V T < 0.0206) (T : ℝ) :
    SaturationRow.row E tol pconv num (fun T => IsothermOptions.saft IsothermOptions.defaults (P T) g (d T) fun _ => 1) T =
      .ok [.scal none, .scal none, .scal none] :=
  c179_refused_row E tol pconv num _ T _ ((c179_violated_saft (P T) g (d T) (fun _ => 1) (V T) (h0 T) (hV T)).1 (h T))

/-- Not vacuous: decane has a critical temperature of 617.7 K and a critical pressure of 2.11 MPa. -/
example : (2.78027e-4 : ℝ) * 2.11e6 < 617.7 := by norm_num

end Verif.Props
