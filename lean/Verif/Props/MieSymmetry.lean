import Mathlib.Algebra.BigOperators.Group.Finset.Defs
import Verif.Model.GammaSW
import Verif.Props.MieLimits

/-!
# C119–C121: relabelling groups and components, the guard of the monomer term, association contact values
-/

namespace Verif.Props
open Verif Verif.Saft Verif.GammaMie Verif.MieTerms

variable {n m : ℕ}

/-! ## C119: the order of the groups and of the components in the input does not matter -/

/-- The groups of `P` listed in another order. -/
def permG (e : Equiv.Perm (Fin m)) (P : Mie n m) : Mie n m where
  g := ⟨fun i k => P.g.ν i (e k), fun k => P.g.V (e k), fun k => P.g.S (e k)⟩
  ε := fun k l => P.ε (e k) (e l)
  σ := fun k l => P.σ (e k) (e l)
  lr := fun k l => P.lr (e k) (e l)
  la := fun k l => P.la (e k) (e l)
  bε := fun k => P.bε (e k)
  bσ := fun k => P.bσ (e k)
  blr := fun k => P.blr (e k)
  bla := fun k => P.bla (e k)
  rings := P.rings

/-- The components of `P` listed in another order. -/
def permC (e : Equiv.Perm (Fin n)) (P : Mie n m) : Mie n m :=
  { P with g := ⟨fun i k => P.g.ν (e i) k, P.g.V, P.g.S⟩, rings := fun i => P.rings (e i) }

private theorem sum2_perm (e : Equiv.Perm (Fin m)) (F : Fin m → Fin m → ℝ) :
    ∑ k, ∑ l, F (e k) (e l) = ∑ k, ∑ l, F k l := by
  rw [← Equiv.sum_comp e (fun k => ∑ l, F k l)]
  exact Finset.sum_congr rfl fun k _ => Equiv.sum_comp e (F (e k))

private theorem cmol_permG (e : Equiv.Perm (Fin m)) (P : Mie n m) (x : Fin n → ℝ) :
    cmol2seg (permG e P).g x = cmol2seg P.g x :=
  Finset.sum_congr rfl fun i _ => Equiv.sum_comp e fun k => x i * P.g.ν i k * P.g.V k * P.g.S k

private theorem xskl_permG (e : Equiv.Perm (Fin m)) (P : Mie n m) (x : Fin n → ℝ) (k l : Fin m) :
    xskl (permG e P).g x k l = xskl P.g x (e k) (e l) := by
  unfold xskl xsk; rw [cmol_permG]; rfl

private theorem zfrac_permG (e : Equiv.Perm (Fin m)) (P : Mie n m) (i : Fin n) (k : Fin m) :
    zfrac (permG e P) i k = zfrac P i (e k) := by
  unfold zfrac
  rw [show ∑ l, zki (permG e P) i l = ∑ l, zki P i l from Equiv.sum_comp e (zki P i)]
  rfl

private theorem avg_permG (e : Equiv.Perm (Fin m)) (P : Mie n m) (q : Fin m → Fin m → ℝ) (i : Fin n) :
    avg (permG e P) (fun k l => q (e k) (e l)) i = avg P q i := by
  simp only [avg, zfrac_permG]
  exact sum2_perm e fun k l => zfrac P i k * zfrac P i l * q k l

private theorem zx_permG (e : Equiv.Perm (Fin m)) (M ρ T : ℝ) (P : Mie n m) (x : Fin n → ℝ) :
    zx M (permG e P) ρ T x = zx M P ρ T x := by
  simp only [zx, zetax, cmol_permG, xskl_permG]
  rw [← sum2_perm e fun k l => xskl P.g x k l * (dkl P T k l ^ 3 * M)]
  rfl

private theorem zxstar_permG (e : Equiv.Perm (Fin m)) (M ρ : ℝ) (P : Mie n m) (x : Fin n → ℝ) :
    zxstar M (permG e P) ρ x = zxstar M P ρ x := by
  simp only [zxstar, zetax, cmol_permG, xskl_permG]
  rw [← sum2_perm e fun k l => xskl P.g x k l * (P.σ k l ^ 3 * M)]
  rfl

/-- **C119** (groups, monomer terms). -/
theorem c119_groups_monomer (e : Equiv.Perm (Fin m)) (M ρ T : ℝ) (P : Mie n m) (x : Fin n → ℝ) :
    ahs M (permG e P) ρ T x = ahs M P ρ T x ∧ afirst M (permG e P) ρ T x = afirst M P ρ T x ∧
    asecond M (permG e P) ρ T x = asecond M P ρ T x ∧ athird M (permG e P) ρ T x = athird M P ρ T x := by
  refine ⟨?_, ?_, ?_, ?_⟩
  · unfold ahs mieHardSphere
    congr 1
    funext q
    simp only [moment, cmol_permG, xskl_permG]
    congr 2
    exact Equiv.sum_comp e fun k => √(xskl P.g x k k) * dklOf (dk P T) k k ^ q
  · simp only [afirst, cmol_permG, xskl_permG, zx_permG]
    congr 1
    exact sum2_perm e fun k l => a1ii M ρ (cmol2seg P.g x) (dkl P T k l) (P.la k l) (P.lr k l) (x0kl P T k l) (P.ε k l)
      (zx M P ρ T x) * xskl P.g x k l
  · simp only [asecond, cmol_permG, xskl_permG, zx_permG, zxstar_permG]
    congr 1
    exact sum2_perm e fun k l => a2NoChi M ρ (cmol2seg P.g x) (dkl P T k l) (P.la k l) (P.lr k l) (x0kl P T k l)
      (P.ε k l) (zx M P ρ T x) * (1 + chi (zxstar M P ρ x) (alphaOf (P.lr k l) (P.la k l))) * xskl P.g x k l
  · simp only [athird, cmol_permG, xskl_permG, zxstar_permG]
    congr 1
    exact sum2_perm e fun k l => a3 (zxstar M P ρ x) (P.ε k l) (alphaOf (P.lr k l) (P.la k l)) * xskl P.g x k l

/-- **C119** (groups, chain term). -/
theorem c119_groups_chain (e : Equiv.Perm (Fin m)) (M ρ T : ℝ) (P : Mie n m) (x : Fin n → ℝ) :
    achain M (permG e P) ρ T x = achain M P ρ T x := by
  have he : ∀ i, epsii (permG e P) i = epsii P i := avg_permG e P P.ε
  have hr : ∀ i, lrii (permG e P) i = lrii P i := avg_permG e P P.lr
  have ha : ∀ i, laii (permG e P) i = laii P i := avg_permG e P P.la
  have hs : ∀ i, sigii (permG e P) i = sigii P i := fun i => by
    unfold sigii; rw [← avg_permG e P (fun k l => P.σ k l ^ 3)]; rfl
  have hd : ∀ i, dii (permG e P) T i = dii P T i := fun i => by
    unfold dii; rw [← avg_permG e P (fun k l => dkl P T k l ^ 3)]; rfl
  have hx : ∀ i, x0ii (permG e P) T i = x0ii P T i := fun i => by unfold x0ii; rw [hs, hd]
  have hb : ∀ i, beadsum (permG e P) i = beadsum P i := fun i => by
    unfold beadsum
    congr 1
    exact Equiv.sum_comp e fun k => P.g.ν i k * P.g.V k * P.g.S k
  simp only [achain, hb, gii, g1, g2, he, hr, ha, hd, hx, zx_permG, zxstar_permG, cmol_permG]

private theorem cmol_permC (e : Equiv.Perm (Fin n)) (P : Mie n m) (x : Fin n → ℝ) :
    cmol2seg (permC e P).g (fun i => x (e i)) = cmol2seg P.g x :=
  Equiv.sum_comp e fun i => ∑ k, x i * P.g.ν i k * P.g.V k * P.g.S k

private theorem xskl_permC (e : Equiv.Perm (Fin n)) (P : Mie n m) (x : Fin n → ℝ) :
    xskl (permC e P).g (fun i => x (e i)) = xskl P.g x := by
  have h : ∀ k, xsk (permC e P).g (fun i => x (e i)) k = xsk P.g x k := fun k => by
    unfold xsk
    rw [cmol_permC, show ∑ i, x (e i) * (permC e P).g.ν i k = ∑ i, x i * P.g.ν i k from
      Equiv.sum_comp e fun i => x i * P.g.ν i k]
    rfl
  funext k l
  unfold xskl
  rw [h, h]

/-- **C119** (components): listing the components, with their mole fractions, in another order changes no term. -/
theorem c119_components (e : Equiv.Perm (Fin n)) (M ρ T : ℝ) (P : Mie n m) (x : Fin n → ℝ) :
    ahs M (permC e P) ρ T (fun i => x (e i)) = ahs M P ρ T x ∧
    afirst M (permC e P) ρ T (fun i => x (e i)) = afirst M P ρ T x ∧
    asecond M (permC e P) ρ T (fun i => x (e i)) = asecond M P ρ T x ∧
    athird M (permC e P) ρ T (fun i => x (e i)) = athird M P ρ T x ∧
    achain M (permC e P) ρ T (fun i => x (e i)) = achain M P ρ T x := by
  refine ⟨?_, ?_, ?_, ?_, ?_⟩
  · unfold ahs mieHardSphere; rw [cmol_permC, xskl_permC]; rfl
  · unfold afirst zx; rw [cmol_permC, xskl_permC]; rfl
  · unfold asecond zx zxstar; rw [cmol_permC, xskl_permC]; rfl
  · unfold athird zxstar; rw [cmol_permC, xskl_permC]; rfl
  · have hg : ∀ i, gii M (permC e P) ρ T (fun i => x (e i)) i = gii M P ρ T x (e i) := fun i => by
      unfold gii g1 g2 zx zxstar; rw [cmol_permC, xskl_permC]; rfl
    unfold achain
    congr 1
    simp only [hg]
    exact Equiv.sum_comp e fun i => x i * beadsum P i * Real.log (gii M P ρ T x i)

/-! ## C120: the guard of the monomer term -/

/-- **C120**: the density the guard compares with is where the packing fraction reaches one. -/
theorem c120_guard_packing (M ρ T : ℝ) (P : Mie n m) (x : Fin n → ℝ) (hM : 0 < M) (h : Phys P T x)
    (hs : 0 < ∑ k, ∑ l, xskl P.g x k l * dkl P T k l ^ 3) :
    densityMax M (cmol2seg P.g x) (xskl P.g x) (dkl P T) 1 ≤ ρ ↔ 1 ≤ zx M P ρ T x := by
  have hC := h.cmol_pos
  have hpi := Real.pi_pos
  have e : zx M P ρ T x = ρ * (cmol2seg P.g x * Real.pi * (∑ k, ∑ l, xskl P.g x k l * dkl P T k l ^ 3) * M) / 6 := by
    simp only [zx, zetax, ← mul_assoc, ← Finset.sum_mul]; ring
  rw [e]
  unfold densityMax
  rw [one_mul, div_div, div_le_iff₀ (by positivity), le_div_iff₀ (by norm_num), one_mul]

open Classical in
/-- **C120** (one density): a packing fraction of at least one is refused, as is a negative density; any other density
gives the sum of the four terms. -/
theorem c120_single (M ρ T : ℝ) (P : Mie n m) (x : Fin n → ℝ) :
    amonomer M P [ρ] T x =
      if densityMax M (cmol2seg P.g x) (xskl P.g x) (dkl P T) 1 ≤ ρ ∨ ρ < 0 then .error .valueError
      else .ok [ahs M P ρ T x + afirst M P ρ T x + asecond M P ρ T x + athird M P ρ T x] := by
  unfold amonomer
  by_cases h1 : densityMax M (cmol2seg P.g x) (xskl P.g x) (dkl P T) 1 ≤ ρ <;> by_cases h2 : ρ < 0 <;> simp [h1, h2]

/-- **C120** (one value per density, in order). -/
theorem c120_pointwise_partial (M T : ℝ) (ρs : List ℝ) (P : Mie n m) (x : Fin n → ℝ) (out : List ℝ)
    (h : amonomer M P ρs T x = .ok out) :
    (∀ ρ ∈ ρs, 0 ≤ ρ) ∧ (∃ ρ ∈ ρs, ρ < densityMax M (cmol2seg P.g x) (xskl P.g x) (dkl P T) 1) ∧
      out = ρs.map fun ρ => ahs M P ρ T x + afirst M P ρ T x + asecond M P ρ T x + athird M P ρ T x := by
  unfold amonomer at h
  split at h
  · exact absurd h (by simp)
  · rename_i h1
    split at h
    · exact absurd h (by simp)
    · rename_i h2
      simp only [List.all_eq_true, decide_eq_true_eq, not_forall, not_le, List.any_eq_true, not_exists, not_and,
        not_lt] at h1 h2
      obtain ⟨ρ, hm, hl⟩ := h1
      exact ⟨h2, ⟨ρ, hm, hl⟩, (Except.ok.inj h).symm⟩

/-- **C120**, where it fails: the guard asks whether *all* densities are too high, so one admissible density lets
every other one pass. -/
theorem c120_violated_mixed (M ρ ρ' T : ℝ) (P : Mie n m) (x : Fin n → ℝ) (h0 : 0 ≤ ρ)
    (h1 : ρ < densityMax M (cmol2seg P.g x) (xskl P.g x) (dkl P T) 1)
    (h2 : densityMax M (cmol2seg P.g x) (xskl P.g x) (dkl P T) 1 ≤ ρ') :
    (∃ out, amonomer M P [ρ, ρ'] T x = .ok out ∧ out.length = 2) ∧ amonomer M P [ρ'] T x = .error .valueError := by
  have h3 : ¬ densityMax M (cmol2seg P.g x) (xskl P.g x) (dkl P T) 1 ≤ ρ := not_le.mpr h1
  have h4 : ¬ ρ < 0 := not_lt.mpr h0
  have h5 : ¬ ρ' < 0 := not_lt.mpr (h0.trans (h1.le.trans h2))
  constructor
  · exact ⟨[_, _], by simp [amonomer, h3, h4, h5]; exact ⟨rfl, rfl⟩, rfl⟩
  · simp [amonomer, h2]

/-- The densities exist: the molecule of two groups has a positive maximum density. -/
example (M : ℝ) (hM : 0 < M) : 0 < densityMax M (cmol2seg dimer.g fun _ => 1) (xskl dimer.g fun _ => 1) (dkl dimer 300) 1 := by
  have hC := dimer_phys.cmol_pos
  have hd : ∀ k l, 0 < xskl dimer.g (fun _ => 1) k l := fun k l => by
    simp [xskl, xsk, cmol2seg, dimer]
  have hs : 0 < ∑ k, ∑ l, xskl dimer.g (fun _ => 1) k l * dkl dimer 300 k l ^ 3 :=
    Finset.sum_pos (fun k _ => Finset.sum_pos (fun l _ => mul_pos (hd k l) (pow_pos (dimer_phys.dkl_pos k l) 3))
      Finset.univ_nonempty) Finset.univ_nonempty
  have := Real.pi_pos
  unfold densityMax
  positivity

/-! ## C121: the contact values for association with cut-off distances -/

/-- **C121**, where it fails: with bonding volumes computed from cut-off distances (`"ijklab"`), the contact values of
the Mie variant are never computed: the table has two columns and the third and fourth are written. -/
theorem c121_violated_always_raises (iij : Fin n → Fin n → ℝ) (M ρ T : ℝ) (P : Mie n m) (x : Fin n → ℝ) :
    grAssoc iij M P ρ T x "ijklab" = .error .indexError := by
  simp [grAssoc, gdHSassoc, etaColumns, setColumn, bind, Except.bind, List.foldlM]

/-- **C121** (the other kinds): with given bonding volumes the correlation is used, an unknown kind is refused. -/
theorem c121_kinds_partial (iij : Fin n → Fin n → ℝ) (M ρ T : ℝ) (P : Mie n m) (x : Fin n → ℝ) (kt : String)
    (h : kt ≠ "ijklab") :
    grAssoc iij M P ρ T x kt = if kt = "klab" then .ok iij else .error .valueError := by
  simp [grAssoc, h]

/-- **C121** (the formula that is not reached): with the moments of the second and third order it is the contact value
of the square-well variant, symmetric in the components, and for one size the value of Carnahan and Starling. -/
theorem c121_formula_partial (e0 e1 di dj : ℝ) :
    grOf e0 e1 di dj = GammaSW.gHS e0 e1 di dj ∧ grOf e0 e1 di dj = grOf e0 e1 dj di ∧
    ∀ η d : ℝ, d ≠ 0 → η ≠ 1 → grOf (η / d) η d d = (1 - η / 2) / (1 - η) ^ 3 := by
  refine ⟨rfl, by unfold grOf; rw [mul_comm di dj, add_comm di dj], fun η d hd hη => ?_⟩
  have h1 : 1 - η ≠ 0 := sub_ne_zero.mpr (Ne.symm hη)
  unfold grOf
  rw [show d * d / (d + d) = d / 2 by field_simp; ring]
  field_simp
  ring

example : grOf 1 0 1 1 = 3 := by norm_num [grOf]

end Verif.Props
