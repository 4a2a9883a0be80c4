import Verif.Model.AssocContribution
import Verif.Props.AssocNegative
import Verif.Props.SaftEnergy
import Verif.Props.AssocEnergy

/-!
# C181: the association contribution inside the energy, the pressure and the fugacity coefficients
-/

namespace Verif.Props
open Verif Verif.Assoc Verif.SaftEnergy

variable {l : ℕ}

/-! ### The energy at one density -/

/-- **C181** (energy): positive fractions give the number of C21. -/
theorem c181_energy (S : Sites ℝ l) (X : Fin l → ℝ) (hX : ∀ s, 0 < X s) :
    AssocContribution.energy S X = .fin (Assoc.aassoc S X) := by
  unfold AssocContribution.energy Assoc.aassoc
  have : (List.ofFn fun s => if S.nk (S.grp s) (S.site s) ≠ 0 then
      Ext.mul (.fin (S.x (S.comp s) * S.ν (S.comp s) (S.grp s) * S.nk (S.grp s) (S.site s)))
        (Ext.add (extLog (.fin (X s))) (.fin ((1 - X s) / 2))) else .fin 0) =
      (List.ofFn fun s => if S.nk (S.grp s) (S.site s) ≠ 0 then
        S.x (S.comp s) * S.ν (S.comp s) (S.grp s) * S.nk (S.grp s) (S.site s) *
          (Real.log (X s) + (1 - X s) / 2) else 0).map Ext.fin := by
    rw [List.map_ofFn]
    congr 1
    funext s
    simp only [Function.comp, extLog, if_pos (hX s), Ext.add, Ext.mul]
    split_ifs <;> rfl
  rw [this, extSum_fin, List.sum_ofFn]

private theorem foldl_nan (L : List (Ext ℝ)) : L.foldl Ext.add .nan = .nan := by
  induction L with
  | nil => rfl
  | cons a L ih => simpa [Ext.add] using ih

private theorem add_nan (a : Ext ℝ) : Ext.add a .nan = .nan := by cases a <;> rfl

private theorem foldl_mem_nan (L : List (Ext ℝ)) (h : Ext.nan ∈ L) : ∀ a, L.foldl Ext.add a = .nan := by
  induction L with
  | nil => exact absurd h (by simp)
  | cons b L ih =>
    intro a
    rw [List.foldl_cons]
    rcases List.mem_cons.1 h with h | h
    · rw [← h, add_nan, foldl_nan]
    · exact ih h _

/-- **C181** (no energy): if the fraction of one kind of sites is negative, the energy is NaN. -/
theorem c181_energy_nan (S : Sites ℝ l) (X : Fin l → ℝ) (s : Fin l) (hk : S.nk (S.grp s) (S.site s) ≠ 0) (hX : X s < 0) :
    AssocContribution.energy S X = .nan := by
  refine foldl_mem_nan _ (List.mem_ofFn.2 ⟨s, ?_⟩) _
  rw [if_pos hk]
  have : extLog (.fin (X s)) = .nan := by
    simp [extLog, not_lt.2 hX.le, hX.ne]
  rw [this]
  rfl

/-! ### The contribution -/

/-- **C181** (refused): a composition of another length is a ValueError. -/
theorem c181_refused (A : AssocContribution.Data l) (ρs : List ℝ) (T : ℝ) (xi : List (Option ℝ)) (h : xi.length ≠ A.n) :
    AssocContribution.aassoc A ρs T xi = .error .valueError := by
  unfold AssocContribution.aassoc
  rw [if_pos h]

private theorem gr_mapM (f : ℝ → Except PyErr (ℕ → ℕ → ℝ)) (g : ℝ → ℕ → ℕ → ℝ) (ρs : List ℝ) (h : ∀ ρ ∈ ρs, f ρ = .ok (g ρ)) :
    ρs.mapM f = .ok (ρs.map g) := by
  induction ρs with
  | nil => rfl
  | cons ρ ρs ih =>
    rw [List.mapM_cons, h ρ (by simp), ih fun r hr => h r (by simp [hr])]
    rfl

/-- **C181** (what is computed): the contribution is the energy of the fractions of the iteration at all densities. -/
theorem c181_fractions (A : AssocContribution.Data l) (ρs : List ℝ) (T : ℝ) (xi : List (Option ℝ)) (h : xi.length = A.n)
    (h0 : ρs ≠ []) (hρ : ∀ ρ ∈ ρs, 0 ≤ ρ) (g : ℝ → ℕ → ℕ → ℝ) (hg : ∀ ρ ∈ ρs, A.gr ρ T xi = .ok (g ρ)) :
    AssocContribution.aassoc A ρs T xi =
      .ok ((calcXika (AssocContribution.sites A T xi) moleculePerNm3 (ρs.map fun ρ => (ρ, g ρ))).map fun q =>
        AssocContribution.energy (AssocContribution.sites A T xi) q.1) := by
  unfold AssocContribution.aassoc
  rw [if_neg (by simpa using h), density_vec ρs h0 hρ]
  simp only [bind, Except.bind]
  rw [gr_mapM _ g ρs hg]
  have hz : ρs.zip (ρs.map g) = ρs.map fun ρ => (ρ, g ρ) := by
    clear h0 hρ hg
    induction ρs with
    | nil => rfl
    | cons r rs ih => rw [List.map_cons, List.zip_cons_cons, ih, List.map_cons]
  simp only [hz]

/-- **C181** (numbers): with strengths that are not negative the contribution is, at every density, a number that is not
positive. -/
theorem c181_finite_partial (A : AssocContribution.Data l) (ρs : List ℝ) (T : ℝ) (xi : List (Option ℝ)) (h : xi.length = A.n)
    (h0 : ρs ≠ []) (hρ : ∀ ρ ∈ ρs, 0 ≤ ρ) (g : ℝ → ℕ → ℕ → ℝ) (hg : ∀ ρ ∈ ρs, A.gr ρ T xi = .ok (g ρ))
    (hS : NonNeg (AssocContribution.sites A T xi)) (hg0 : ∀ ρ ∈ ρs, ∀ i j, 0 ≤ g ρ i j) :
    ∃ as : List ℝ, AssocContribution.aassoc A ρs T xi = .ok (as.map .fin) ∧ as.length = ρs.length ∧ ∀ a ∈ as, a ≤ 0 := by
  have hX := c21_phys (AssocContribution.sites A T xi) hS perNm3_pos.le (ρs.map fun ρ => (ρ, g ρ))
    (fun r hr => by
      obtain ⟨ρ, hm, rfl⟩ := List.mem_map.1 hr
      exact ⟨hρ ρ hm, hg0 ρ hm⟩) 500 (1 / 10 ^ 12) (damp := 1 / 10) (by norm_num) (by norm_num)
  refine ⟨(calcXika (AssocContribution.sites A T xi) moleculePerNm3 (ρs.map fun ρ => (ρ, g ρ))).map fun q =>
    Assoc.aassoc (AssocContribution.sites A T xi) q.1, ?_, ?_, ?_⟩
  · rw [c181_fractions A ρs T xi h h0 hρ g hg, List.map_map]
    congr 1
    refine List.map_congr_left fun q hq => ?_
    exact c181_energy _ _ fun s => (hX q hq s).1
  · rw [List.length_map, c21_length, List.length_map]
  · intro a ha
    obtain ⟨q, hq, rfl⟩ := List.mem_map.1 ha
    exact c21_aassoc_nonpos _ hS _ (hX q hq)

/-! ### Accuracy -/

/-- **C181** (accuracy of the energy): fractions whose residual is below the tolerance give the energy of the solution of the
equations of mass action up to the number of sites times a factor of the size of the tolerance; `m` bounds the fractions from
below. -/
theorem c181_accuracy (S : Sites ℝ l) (h : NonNeg S) (c : Fin l → Fin l → ℝ) (hc : ∀ s t, 0 ≤ c s t) {B m tol : ℝ}
    (hB0 : 0 ≤ B) (hB : ∀ s, ∑ t, c s t ≤ B) (hm : m = 1 / (1 + B)) (X Z : Fin l → ℝ) (hX : ∀ s, 0 < X s ∧ X s ≤ 1)
    (hZ : ∀ s, 0 < Z s ∧ Z s ≤ 1) (eZ : ∀ s, Z s = 1 / (1 + ∑ t, c s t * Z t)) (ht : tol < m ^ 2)
    (hr : ∑ s, |1 / (1 + ∑ u, c s u * X u) - X s| < tol) :
    |Assoc.aassoc S X - Assoc.aassoc S Z| ≤
      (∑ s, siteNumber S s) * (tol / (m ^ 2 - tol) * (1 / (m - tol) + 1 / 2)) := by
  have hm0 : 0 < m := by rw [hm]; positivity
  have hm1 : m ≤ 1 := by rw [hm]; exact (div_le_one (by linarith)).2 (by linarith)
  have hmm : m ^ 2 ≤ m := by nlinarith
  have hacc := c62_accuracy c hc hB0 hB X Z hX hZ eZ (by rw [← hm]; exact ht) hr
  rw [← hm] at hacc
  have hres : ∀ s, |rhs c X s - X s| < tol := fun s =>
    lt_of_le_of_lt (Finset.single_le_sum (f := fun s => |rhs c X s - X s|)
      (fun _ _ => abs_nonneg _) (Finset.mem_univ s)) hr
  have hXm : ∀ s, m - tol ≤ X s := fun s => by
    have h1 := rhs_ge c hc X hX hB s
    rw [← hm] at h1
    have := (abs_lt.1 (hres s)).2
    linarith
  have hZm : ∀ s, m ≤ Z s := fun s => by
    have h1 := rhs_ge c hc Z hZ hB s
    rw [← hm] at h1
    exact h1.trans (le_of_eq (eZ s).symm)
  have hN : ∀ s, 0 ≤ siteNumber S s := fun s => by
    unfold siteNumber
    exact mul_nonneg (mul_nonneg (h.x _) (h.ν _ _)) (h.nk _ _)
  unfold Assoc.aassoc
  rw [← Finset.sum_sub_distrib, Finset.sum_mul]
  refine (Finset.abs_sum_le_sum_abs _ _).trans (Finset.sum_le_sum fun s _ => ?_)
  have htol : 0 < tol := lt_of_le_of_lt (abs_nonneg _) (hres s)
  have hd : 0 < m - tol := by linarith
  generalize he : tol / (m ^ 2 - tol) = e at hacc
  have he0 : 0 ≤ e := (abs_nonneg _).trans (hacc s)
  split_ifs with hk
  · rw [← mul_sub, abs_mul]
    have : |S.x (S.comp s) * S.ν (S.comp s) (S.grp s) * S.nk (S.grp s) (S.site s)| = siteNumber S s := abs_of_nonneg (hN s)
    rw [this]
    refine mul_le_mul_of_nonneg_left ?_ (hN s)
    have hlog : ∀ a b : ℝ, m - tol ≤ a → m - tol ≤ b → |a - b| ≤ e → Real.log a - Real.log b ≤ e / (m - tol) := by
      intro a b ha hb hab
      have ha0 : 0 < a := by linarith
      have hb0 : 0 < b := by linarith
      rw [← Real.log_div ha0.ne' hb0.ne']
      have h1 := Real.log_le_sub_one_of_pos (div_pos ha0 hb0)
      have h2 : a / b - 1 = (a - b) / b := by field_simp
      have h3 : (a - b) / b ≤ e / (m - tol) :=
        div_le_div₀ he0 ((le_abs_self _).trans hab) hd hb
      linarith
    have h1 := hlog (X s) (Z s) (hXm s) (by linarith [hZm s]) (hacc s)
    have h2 := hlog (Z s) (X s) (by linarith [hZm s]) (hXm s) (by rw [abs_sub_comm]; exact hacc s)
    have h3 := abs_le.1 (hacc s)
    have e1 : e * (1 / (m - tol) + 1 / 2) = e / (m - tol) + e / 2 := by ring
    rw [e1, abs_le]
    constructor <;> linarith [h3.1, h3.2]
  · rw [sub_self, abs_zero]
    have : 0 ≤ e * (1 / (m - tol) + 1 / 2) := by positivity
    exact mul_nonneg (hN s) this

/-! ### The pressure -/

private theorem residual_congr (E E' : Eos) (rho : List ℝ) (T : ℝ) (xi : List (Option ℝ)) (c c' : Contribution)
    (hn : E'.n = E.n) (hr : E'.res = E.res) (hc : E.assoc = some c) (hc' : E'.assoc = some c')
    (h0 : rho ≠ []) (h : ∀ ρ ∈ rho, 0 ≤ ρ) (hcc : c rho T xi = c' rho T xi) :
    SaftEnergy.residual E rho T xi = SaftEnergy.residual E' rho T xi := by
  unfold SaftEnergy.residual
  rw [density_vec rho h0 h, hn, hr, hc, hc']
  simp only [bind, Except.bind, hcc]

/-- **C181** (pressure): the pressure with an association contribution that is not computed density by density is the
difference quotient of the energies at the two densities of the stencil.  With energies within `δ` of `F` it differs from the
difference quotient of `F` by at most `R T ρ² δ / h`, where `h` is the step. -/
theorem c181_pressure {E : Eos} {T s ρ δ : ℝ} {xi : List ℝ} (hE : GoodEos E xi) (hT : 0 < T) (h1 : s < 1)
    (hx : noNegative (xi.map some)) (hρ : 2 * SaftEnergy.eps < ρ)
    (fs : List (ℝ → ℝ)) (hf : List.Forall₂ (fun c f => PointWise c T (xi.map some) f) E.res fs) (c : Contribution)
    (hc : E.assoc = some c) (F : ℝ → ℝ) (u v : ℝ)
    (hv : c [ρ + pressureStep s ρ, ρ - pressureStep s ρ] T (xi.map some) = .ok [.fin u, .fin v])
    (hu : |u - F (ρ + pressureStep s ρ)| ≤ δ) (hv' : |v - F (ρ - pressureStep s ρ)| ≤ δ) :
    ∃ p, pressure E [ρ] T (xi.map some) s = .ok [.fin p] ∧
      |p - quotient (fun r => (fs.map (· r)).sum + F r + (idealValue T r (significant xi E.massi) - 1)) (pressureStep s ρ) ρ *
        T * SaftEnergy.R * ρ ^ 2| ≤ SaftEnergy.R * T * ρ ^ 2 * δ / pressureStep s ρ := by
  have hp := pressureStep_pos (s := s) (ρ := ρ)
  have hlt := pressureStep_lt h1 hρ
  have he := machEps_pos
  have hρ0 : 0 < ρ := by linarith
  let f : ℝ → ℝ := fun r => if r = ρ + pressureStep s ρ then u else v
  let E' : Eos := { E with assoc := some fun r _ _ => .ok (r.map fun ρ => .fin (f ρ)) }
  have hf1 : f (ρ + pressureStep s ρ) = u := if_pos rfl
  have hf2 : f (ρ - pressureStep s ρ) = v := if_neg (by intro h; linarith)
  have hsame : pressure E [ρ] T (xi.map some) s = pressure E' [ρ] T (xi.map some) s := by
    have hst : CentralDiff.steps SaftEnergy.eps s true [ρ] = [pressureStep s ρ] := by
      simp [CentralDiff.steps, pressureStep]
    have hh : helmholtz E [ρ + pressureStep s ρ, ρ - pressureStep s ρ] T (xi.map some) =
        helmholtz E' [ρ + pressureStep s ρ, ρ - pressureStep s ρ] T (xi.map some) := by
      have hpos : ∀ r ∈ [ρ + pressureStep s ρ, ρ - pressureStep s ρ], 0 ≤ r := by
        intro r hr
        simp only [List.mem_cons, List.not_mem_nil, or_false] at hr
        rcases hr with rfl | rfl <;> linarith
      unfold helmholtz
      rw [density_vec _ (by simp) hpos]
      simp only [bind, Except.bind]
      rw [residual_congr E E' _ T _ c _ rfl rfl hc rfl (by simp) hpos (by rw [hv]; simp [hf1, hf2])]
      rfl
    unfold pressure
    rw [density_vec [ρ] (by simp) (by simpa using hρ0.le)]
    simp only [bind, Except.bind, hst, List.zipWith_cons_cons, List.zipWith_nil_left, List.cons_append, List.nil_append]
    rw [hh]
  have ha : ResidualIs E' T (xi.map some) fun r => (fs.map (· r)).sum + f r := fun rho h0 h =>
    c104_residual E' T (xi.map some) (by rw [List.length_map]; exact hE.size) hx fs hf f
      (.inr ⟨_, rfl, fun _ _ _ => rfl⟩) rho h0 h
  have hE' : GoodEos E' xi := ⟨hE.size, hE.massi, hE.pos, hE.method⟩
  have hP := c104_pressure hE' hT h1 ha [ρ] (by simp) (by simpa using hρ)
  refine ⟨_, by rw [hsame, hP]; rfl, ?_⟩
  simp only [quotient, hf1, hf2]
  have hR := gasConst_pos
  generalize pressureStep s ρ = h at *
  have e : ∀ a b c d : ℝ, ((fs.map (· (ρ + h))).sum + u + a - ((fs.map (· (ρ - h))).sum + v + b)) / (2 * h) * T * SaftEnergy.R * ρ ^ 2 -
      ((fs.map (· (ρ + h))).sum + c + a - ((fs.map (· (ρ - h))).sum + d + b)) / (2 * h) * T * SaftEnergy.R * ρ ^ 2 =
      SaftEnergy.R * T * ρ ^ 2 * (((u - c) - (v - d)) / 2) / h := by
    intro a b c d
    field_simp
    ring
  have hEm : E'.massi = E.massi := rfl
  rw [hEm, e, abs_div, abs_mul, abs_of_pos hp, abs_of_pos (show 0 < SaftEnergy.R * T * ρ ^ 2 by positivity)]
  refine div_le_div_of_nonneg_right (mul_le_mul_of_nonneg_left ?_ (by positivity)) hp.le
  have := abs_le.1 hu
  have := abs_le.1 hv'
  rw [abs_le]
  constructor <;> linarith

/-- **C181** (accuracy of the pressure): when the iteration converged at both densities of the stencil, the pressure of the code
differs from the difference quotient with the exact solution of the equations of mass action by at most `R T ρ² δ / h`, where `δ`
is the tolerance of the iteration with the factors of `c181_accuracy`. -/
theorem c181_pressure_accurate {E : Eos} {T s ρ : ℝ} {xi : List ℝ} (hE : GoodEos E xi) (hT : 0 < T) (h1 : s < 1)
    (hx : noNegative (xi.map some)) (hρ : 2 * SaftEnergy.eps < ρ)
    (fs : List (ℝ → ℝ)) (hf : List.Forall₂ (fun c f => PointWise c T (xi.map some) f) E.res fs)
    (A : AssocContribution.Data l) (hA : E.assoc = some (AssocContribution.aassoc A)) (hn : xi.length = A.n)
    (g : ℝ → ℕ → ℕ → ℝ) (hg : ∀ r, 0 ≤ r → A.gr r T (xi.map some) = .ok (g r)) (hg0 : ∀ r i j, 0 ≤ g r i j)
    (S : Sites ℝ l) (hS : S = AssocContribution.sites A T (xi.map some)) (hN : NonNeg S) {B m tol : ℝ} (hB0 : 0 ≤ B)
    (hB : ∀ r, r = ρ + pressureStep s ρ ∨ r = ρ - pressureStep s ρ → ∀ i, ∑ t, coef S moleculePerNm3 r (g r) i t ≤ B)
    (hm : m = 1 / (1 + B)) (htol : tol = 1 / 10 ^ 12) (ht : tol < m ^ 2) (Z : ℝ → Fin l → ℝ)
    (hZ : ∀ r i, 0 < Z r i ∧ Z r i ≤ 1)
    (eZ : ∀ r i, Z r i = 1 / (1 + ∑ t, coef S moleculePerNm3 r (g r) i t * Z r t))
    (hconv : ∀ q ∈ calcXika S moleculePerNm3 [(ρ + pressureStep s ρ, g (ρ + pressureStep s ρ)),
      (ρ - pressureStep s ρ, g (ρ - pressureStep s ρ))], ∃ e, q.2 = some e ∧ e < tol) :
    ∃ p, pressure E [ρ] T (xi.map some) s = .ok [.fin p] ∧
      |p - quotient (fun r => (fs.map (· r)).sum + Assoc.aassoc S (Z r) + (idealValue T r (significant xi E.massi) - 1))
        (pressureStep s ρ) ρ * T * SaftEnergy.R * ρ ^ 2| ≤
      SaftEnergy.R * T * ρ ^ 2 * ((∑ i, siteNumber S i) * (tol / (m ^ 2 - tol) * (1 / (m - tol) + 1 / 2))) / pressureStep s ρ := by
  have hp := pressureStep_pos (s := s) (ρ := ρ)
  have hlt := pressureStep_lt h1 hρ
  have he := machEps_pos
  generalize hup : ρ + pressureStep s ρ = a at *
  generalize hdn : ρ - pressureStep s ρ = b at *
  have ha : 0 ≤ a := by linarith
  have hb : 0 ≤ b := by linarith
  have hpos : ∀ r ∈ [a, b], 0 ≤ r := by
    intro r hr
    simp only [List.mem_cons, List.not_mem_nil, or_false] at hr
    rcases hr with rfl | rfl <;> assumption
  have hval := c181_fractions A [a, b] T (xi.map some) (by rw [List.length_map]; exact hn) (by simp) hpos g
    fun r hr => hg r (hpos r hr)
  rw [← hS] at hval
  set c1 := coef S moleculePerNm3 a (g a) with hc1
  set c2 := coef S moleculePerNm3 b (g b) with hc2
  have n1 : ∀ i t, 0 ≤ c1 i t := c21_coef_nonneg S hN perNm3_pos.le ha _ (hg0 a)
  have n2 : ∀ i t, 0 ≤ c2 i t := c21_coef_nonneg S hN perNm3_pos.le hb _ (hg0 b)
  set r1 := iter c1 (1 / 10 ^ 12) (1 / 10) 500 fun _ => 1 / 2 with hr1
  set r2 := iter c2 (1 / 10 ^ 12) (1 / 10) 500 r1.1 with hr2
  have hX : calcXika S moleculePerNm3 [(a, g a), (b, g b)] = [r1, r2] := rfl
  have p1 : ∀ i, 0 < r1.1 i ∧ r1.1 i ≤ 1 :=
    c21_iter_phys c1 n1 _ (by norm_num) (by norm_num) 500 _ fun _ => ⟨by norm_num, by norm_num⟩
  have p2 : ∀ i, 0 < r2.1 i ∧ r2.1 i ≤ 1 :=
    c21_iter_phys c2 n2 _ (by norm_num) (by norm_num) 500 _ p1
  rw [hX] at hconv
  obtain ⟨e1, he1, hlt1⟩ := hconv r1 (by simp)
  obtain ⟨e2, he2, hlt2⟩ := hconv r2 (by simp)
  have q1 := c62_reported c1 (1 / 10 ^ 12) (1 / 10) 500 (fun _ => 1 / 2) he1 (by rw [← htol]; exact hlt1)
  have q2 := c62_reported c2 (1 / 10 ^ 12) (1 / 10) 500 r1.1 he2 (by rw [← htol]; exact hlt2)
  rw [q1] at hlt1
  rw [q2] at hlt2
  have d1 := c181_accuracy S hN c1 n1 hB0 (hB a (.inl rfl)) hm r1.1 (Z a) p1 (hZ a) (eZ a) ht hlt1
  have d2 := c181_accuracy S hN c2 n2 hB0 (hB b (.inr rfl)) hm r2.1 (Z b) p2 (hZ b) (eZ b) ht hlt2
  refine c181_pressure hE hT h1 hx hρ fs hf _ hA (fun r => Assoc.aassoc S (Z r)) (Assoc.aassoc S r1.1) (Assoc.aassoc S r2.1)
    ?_ (by rw [hup]; exact d1) (by rw [hdn]; exact d2)
  rw [hup, hdn, hval, List.map_cons, List.map_cons, List.map_nil, hX]
  simp only [List.map_cons, List.map_nil, c181_energy S r1.1 fun i => (p1 i).1, c181_energy S r2.1 fun i => (p2 i).1]

/-- Not vacuous: sites of factor two, half of which are bonded. -/
example : (∀ _s : Fin 1, (1 / 2 : ℝ) = 1 / (1 + ∑ _t : Fin 1, 2 * (1 / 2))) ∧
    ∑ _s : Fin 1, |1 / (1 + ∑ _u : Fin 1, 2 * (1 / 2)) - (1 / 2 : ℝ)| < 1 / 10 ^ 12 ∧ (1 / 10 ^ 12 : ℝ) < (1 / (1 + 2)) ^ 2 := by
  norm_num

/-! ### Fugacity coefficients -/

/-- **C181** (NaN is handed on): if the residual energy is NaN, so are all fugacity coefficients that are returned. -/
theorem c181_fugacity_nan (E : Eos) (P : Arg) (ρ t : ℝ) (xi : List ℝ) (dy : ℝ) (lm : Bool) (out : List (Ext ℝ))
    (ha : SaftEnergy.residual E [ρ] t (xi.map some) = .ok [.nan])
    (h : fugacity E P (.num ρ) xi (.num t) dy lm = .ok out) : ∀ v ∈ out, v = .nan := by
  have hmap : ∀ L : List (Ext ℝ), ∀ o, npZip Ext.add [.nan] L = .ok o → ∀ v ∈ o, v = .nan := by
    intro L o ho v hv
    unfold npZip at ho
    split at ho
    · rename_i hl
      obtain ⟨a, rfl⟩ := List.length_eq_one_iff.1 hl.symm
      have : o = [Ext.add .nan a] := by simpa using ho.symm
      rw [this] at hv
      have := List.mem_singleton.1 hv
      rw [this]; rfl
    · have : o = L.map (Ext.add .nan) := by simpa using ho.symm
      rw [this] at hv
      obtain ⟨a, -, rfl⟩ := List.mem_map.1 hv
      rfl
  have hden : ∀ r, density (.scalar (some ρ)) = .ok r → r = [ρ] := by
    intro r hr
    simp only [density, CheckDensity.checkDensity, CheckDensity.screen, bind, Except.bind] at hr
    by_cases hneg : ρ < 0
    · simp [hneg] at hr
    · simpa [hneg] using hr.symm
  unfold fugacity at h
  simp only [Arg.scalar, bind, Except.bind] at h
  split at h
  · exact absurd h (by simp)
  · split at h
    · exact absurd h (by simp)
    · split at h
      · exact absurd h (by simp)
      · rename_i r hr
        rw [hden r hr, ha] at h
        dsimp only at h
        split at h
        · exact absurd h (by simp)
        · split at h
          · exact absurd h (by simp)
          · rename_i e he
            have ho : out = _ := (Except.ok.inj h).symm
            rw [ho]
            intro v hv
            obtain ⟨a, ha, rfl⟩ := List.mem_map.1 hv
            rw [hmap _ _ he a ha]
            rfl

/-- One kind of self-associating sites on the spheres of C127. -/
noncomputable def bondData (ε v : ℝ) : AssocContribution.Data 1 where
  n := 1
  comp := fun _ => 0
  grp := fun _ => 0
  site := fun _ => 0
  ν := fun _ _ => 1
  nk := fun _ _ => 1
  ε := fun _ _ _ _ => ε
  vol := fun _ => .klab fun _ _ _ _ => v
  gr := AssocContribution.mieGr sphere "klab"

/-- The spheres of C127 with these sites: monomer and association. -/
noncomputable def bondEos (ε v : ℝ) : Eos where
  n := 1
  massi := [1]
  method := "Abroglie"
  res := [DensityReach.mieMonomer moleculePerNm3 sphere]
  assoc := some (AssocContribution.aassoc (bondData ε v))

/-- **C181**, where it fails: for Lennard-Jones spheres with attracting sites, at every temperature between 50 and 800 K, there are a
density at which the other contributions are numbers and a bonding volume for which the residual energy is NaN, without an
exception, and with it every fugacity coefficient that is returned. -/
theorem c181_violated_spheres (T ε : ℝ) (h1 : 50 ≤ T) (h2 : T ≤ 800) (hε : 0 < ε) :
    ∃ ρ v, 0 < ρ ∧ 0 < v ∧
      (∃ a, DensityReach.mieMonomer moleculePerNm3 sphere [ρ] T [some 1] = .ok [.fin a]) ∧
      SaftEnergy.residual (bondEos ε v) [ρ] T [some 1] = .ok [.nan] ∧
      ∀ P dy lm out, fugacity (bondEos ε v) P (.num ρ) [1] (.num T) dy lm = .ok out → ∀ z ∈ out, z = .nan := by
  have hF : 0 < mayer ε T := by
    unfold mayer
    have : 0 < ε / T := div_pos hε (by linarith)
    have := Real.add_one_lt_exp this.ne'
    linarith
  obtain ⟨ρ, hρ, ⟨a, ha⟩, v, hv, -, X, e, hX, hX0⟩ := c180_violated_spheres moleculePerNm3 T (mayer ε T) perNm3_pos h1 h2 hF
  have hfr : (DensityReach.fractions [some 1] : Fin 1 → ℝ) = fun _ => 1 := by
    funext i
    simp [DensityReach.fractions]
  have hmono : DensityReach.mieMonomer moleculePerNm3 sphere [ρ] T [some 1] = .ok [.fin a] := by
    simp [DensityReach.mieMonomer, hfr, ha]
  have hgr : (bondData ε v).gr ρ T [some 1] = .ok (assocSlice moleculePerNm3 sphere ρ T fun _ => 1) := by
    simp only [bondData, AssocContribution.mieGr, AssocIntegral.calcGr, MieTerms.grAssoc, if_true, hfr]
    rfl
  have hcoef : coef (AssocContribution.sites (bondData ε v) T [some 1]) moleculePerNm3 ρ
      (assocSlice moleculePerNm3 sphere ρ T fun _ => 1) =
      coef (bondSite (mayer ε T) v) moleculePerNm3 ρ (assocSlice moleculePerNm3 sphere ρ T fun _ => 1) := by
    funext s t
    simp [coef, bondSite, bondData, AssocContribution.sites, Vol.at]
  have hX' : calcXika (AssocContribution.sites (bondData ε v) T [some 1]) moleculePerNm3
      [(ρ, assocSlice moleculePerNm3 sphere ρ T fun _ => 1)] = [(X, e)] := by
    rw [← hX]
    simp only [calcXika, List.map_cons, List.map_nil, hcoef]
  have hassoc : AssocContribution.aassoc (bondData ε v) [ρ] T [some 1] = .ok [.nan] := by
    rw [c181_fractions (bondData ε v) [ρ] T [some 1] rfl (by simp) (by simpa using hρ.le)
      (fun _ => assocSlice moleculePerNm3 sphere ρ T fun _ => 1) (by simpa using hgr)]
    rw [List.map_cons, List.map_nil, hX', List.map_cons, List.map_nil,
      c181_energy_nan _ X 0 (by simp [AssocContribution.sites, bondData]) (by rw [hX0]; norm_num)]
  have hres : SaftEnergy.residual (bondEos ε v) [ρ] T [some 1] = .ok [.nan] := by
    unfold SaftEnergy.residual
    rw [density_vec [ρ] (by simp) (by simpa using hρ.le)]
    have hneg : [some (1 : ℝ)].any SaftEnergy.negative = false := by simp [SaftEnergy.negative]
    simp [bondEos, bind, Except.bind, hneg, addAll, hmono, hassoc, addTo, npZip, Ext.add]
  exact ⟨ρ, v, hρ, hv, ⟨a, hmono⟩, hres, fun P dy lm out h => c181_fugacity_nan _ P ρ T [1] dy lm out hres h⟩

/-- **C181** (strengths): the factor of the pair of sites `s`, `t` is the number of sites `t` per volume times the Mayer factor,
the bonding volume at this temperature and the correlation of the two components. -/
theorem c181_strengths {l : ℕ} (A : AssocContribution.Data l) (T ρ : ℝ) (x : List ℝ) (g : ℕ → ℕ → ℝ) (s t : Fin l)
    (h : A.comp t < x.length) :
    coef (AssocContribution.sites A T (x.map some)) moleculePerNm3 ρ g s t =
      moleculePerNm3 * ρ * x[A.comp t] * A.ν (A.comp t) (A.grp t) * A.nk (A.grp t) (A.site t) *
        ((Real.exp (A.ε (A.grp s) (A.grp t) (A.site s) (A.site t) / T) - 1) *
          (A.vol T).at (A.comp s) (A.comp t) (A.grp s) (A.grp t) (A.site s) (A.site t) * g (A.comp s) (A.comp t)) := by
  simp [coef, AssocContribution.sites, mayer, h]

/-- **C181** (numbers of sites): the energy of positive fractions, from the composition and the parameters. -/
theorem c181_site_sum {l : ℕ} (A : AssocContribution.Data l) (T : ℝ) (x : List ℝ) (X : Fin l → ℝ) (hX : ∀ s, 0 < X s)
    (h : ∀ s, A.comp s < x.length) :
    AssocContribution.energy (AssocContribution.sites A T (x.map some)) X =
      .fin (∑ s, x[A.comp s]'(h s) * A.ν (A.comp s) (A.grp s) * A.nk (A.grp s) (A.site s) *
        (Real.log (X s) + (1 - X s) / 2)) := by
  rw [c181_energy _ _ hX]
  simp only [Assoc.aassoc, AssocContribution.sites]
  congr 1
  refine Finset.sum_congr rfl fun s _ => ?_
  by_cases h0 : A.nk (A.grp s) (A.site s) = 0 <;> simp [h s, h0]

/-- **C181** (correlation): between components the contribution uses the correlation of C127 at the given composition, and it is
refused when that is. -/
theorem c181_correlation {n m : ℕ} (P : MieTerms.Mie n m) (k : String) (ρ T : ℝ) (x : List ℝ) (hx : x.length = n) :
    (∀ e, AssocIntegral.calcGr moleculePerNm3 P ρ T (fun i => x[i.1]) k = .error e →
      AssocContribution.mieGr P k ρ T (x.map some) = .error e) ∧
    (∀ g, AssocIntegral.calcGr moleculePerNm3 P ρ T (fun i => x[i.1]) k = .ok g →
      ∃ g', AssocContribution.mieGr P k ρ T (x.map some) = .ok g' ∧ ∀ i j : Fin n, g' i j = g i j) := by
  have hf : (DensityReach.fractions (x.map some) : Fin n → ℝ) = fun i => x[i.1] := by
    funext i
    simp [DensityReach.fractions, hx]
  constructor
  · intro e he
    simp only [AssocContribution.mieGr, hf, he, bind, Except.bind]
  · intro g hg
    refine ⟨fun i j => if h : i < n ∧ j < n then g ⟨i, h.1⟩ ⟨j, h.2⟩ else 0, ?_, ?_⟩
    · simp only [AssocContribution.mieGr, hf, hg, bind, Except.bind]
    · intro i j
      simp

/-- Not vacuous: one site per molecule. -/
example (T ρ : ℝ) (g : ℕ → ℕ → ℝ) :
    coef (AssocContribution.sites (bondData 2000 3) T [some 1]) moleculePerNm3 ρ g 0 0 =
      moleculePerNm3 * ρ * ((Real.exp (2000 / T) - 1) * 3 * g 0 0) := by
  have := c181_strengths (bondData 2000 3) T ρ [1] g 0 0 (by simp [bondData])
  simpa [bondData, Vol.at] using this

end Verif.Props
