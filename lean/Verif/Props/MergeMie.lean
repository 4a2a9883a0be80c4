import Verif.Props.MieLimits

/-!
# C124: names of components and groups carry no physics (Mie fluid)

A description in which a substance is listed as several identical components, or a group under several names with equal
parameters, gives the same energy as the description with one entry.  Permutations are a special case.
-/

namespace Verif.Props
open Verif Verif.Saft Verif.GammaMie Verif.MieTerms

variable {n n' m m' : ℕ}

/-- The amounts `a'` of the entries `k'`, collected under their names `h k'`. -/
def collected (h : Fin m' → Fin m) (a' : Fin m' → ℝ) (k : Fin m) : ℝ := ∑ k', if h k' = k then a' k' else 0

/-- A sum over entries is the sum over the collected amounts. -/
theorem collected_sum (h : Fin m' → Fin m) (a' : Fin m' → ℝ) (F : Fin m → ℝ) :
    ∑ k, collected h a' k * F k = ∑ k', a' k' * F (h k') := by
  simp only [collected, Finset.sum_mul]
  rw [Finset.sum_comm]
  refine Finset.sum_congr rfl fun k' _ => ?_
  simp [ite_mul]

/-- The same for sums over pairs. -/
theorem collected_sum2 (h : Fin m' → Fin m) (a' : Fin m' → ℝ) (F : Fin m → Fin m → ℝ) :
    ∑ k, ∑ l, collected h a' k * collected h a' l * F k l = ∑ k', ∑ l', a' k' * a' l' * F (h k') (h l') := by
  have e : ∀ k, ∑ l, collected h a' k * collected h a' l * F k l = collected h a' k * ∑ l', a' l' * F k (h l') := by
    intro k
    rw [← collected_sum h a' (F k), Finset.mul_sum]
    exact Finset.sum_congr rfl fun l _ => by ring
  simp only [e]
  rw [collected_sum h a' fun k => ∑ l', a' l' * F k (h l')]
  refine Finset.sum_congr rfl fun k' _ => ?_
  rw [Finset.mul_sum]
  exact Finset.sum_congr rfl fun l _ => by ring

/-! ## Components -/

/-- The groups of a description whose component `i'` is the substance `f i'`. -/
def relistG (f : Fin n' → Fin n) (g : Groups n m) : Groups n' m := ⟨fun i k => g.ν (f i) k, g.V, g.S⟩

theorem relist_cmol (f : Fin n' → Fin n) (g : Groups n m) (x' : Fin n' → ℝ) :
    cmol2seg (relistG f g) x' = cmol2seg g (collected f x') := by
  have e1 : cmol2seg g (collected f x') = ∑ i, collected f x' i * ∑ j, g.ν i j * g.V j * g.S j := by
    simp only [cmol2seg, Finset.mul_sum]
    exact Finset.sum_congr rfl fun i _ => Finset.sum_congr rfl fun j _ => by ring
  rw [e1, collected_sum]
  simp only [cmol2seg, Finset.mul_sum, relistG]
  exact Finset.sum_congr rfl fun i _ => Finset.sum_congr rfl fun j _ => by ring

theorem relist_xskl (f : Fin n' → Fin n) (g : Groups n m) (x' : Fin n' → ℝ) :
    xskl (relistG f g) x' = xskl g (collected f x') := by
  have h : ∀ k, xsk (relistG f g) x' k = xsk g (collected f x') k := fun k => by
    unfold xsk
    rw [relist_cmol, collected_sum f x' fun i => g.ν i k]
    rfl
  funext k l
  unfold xskl
  rw [h, h]

/-- The description whose component `i'` is the substance `f i'`. -/
def relistC (f : Fin n' → Fin n) (P : Mie n m) : Mie n' m :=
  { P with g := relistG f P.g, rings := fun i => P.rings (f i) }

/-- **C124** (components, perturbation terms): listing a substance several times does not change them. -/
theorem c124_components_mie (f : Fin n' → Fin n) (M ρ T : ℝ) (P : Mie n m) (x' : Fin n' → ℝ) :
    afirst M (relistC f P) ρ T x' = afirst M P ρ T (collected f x') ∧
    asecond M (relistC f P) ρ T x' = asecond M P ρ T (collected f x') ∧
    athird M (relistC f P) ρ T x' = athird M P ρ T (collected f x') := by
  refine ⟨?_, ?_, ?_⟩
  · unfold afirst zx relistC; rw [relist_cmol, relist_xskl]; rfl
  · unfold asecond zx zxstar relistC; rw [relist_cmol, relist_xskl]; rfl
  · unfold athird zxstar relistC; rw [relist_cmol, relist_xskl]

/-- **C124** (components, hard spheres): unchanged as long as both descriptions, or neither, have one component; see C56
for the exception. -/
theorem c124_components_mie_hs_partial (f : Fin n' → Fin n) (M ρ T : ℝ) (P : Mie n m) (x' : Fin n' → ℝ)
    (hn : (n' == 1) = (n == 1)) : ahs M (relistC f P) ρ T x' = ahs M P ρ T (collected f x') := by
  unfold ahs mieHardSphere relistC; rw [relist_cmol, relist_xskl, hn]; rfl

/-- **C124** (components, chain term). -/
theorem c124_components_mie_chain (f : Fin n' → Fin n) (M ρ T : ℝ) (P : Mie n m) (x' : Fin n' → ℝ) :
    achain M (relistC f P) ρ T x' = achain M P ρ T (collected f x') := by
  have h : ∀ i, gii M (relistC f P) ρ T x' i = gii M P ρ T (collected f x') (f i) := fun i => by
    unfold gii g1 g2 zx zxstar relistC
    rw [relist_cmol, relist_xskl]; rfl
  have e : ∀ i, collected f x' i * beadsum P i * Real.log (gii M P ρ T (collected f x') i)
      = collected f x' i * (beadsum P i * Real.log (gii M P ρ T (collected f x') i)) := fun i => by ring
  unfold achain
  simp only [h, e]
  rw [collected_sum f x' fun i => beadsum P i * Real.log (gii M P ρ T (collected f x') i)]
  congr 1
  refine Finset.sum_congr rfl fun i _ => ?_
  rw [mul_assoc]; rfl

/-! ## Groups -/

/-- `ν'` counts the groups by their new names `k'`, of which `h k'` is the old one. -/
def Renames (h : Fin m' → Fin m) (ν' : Fin n → Fin m' → ℝ) (g : Groups n m) : Prop :=
  ∀ i k, g.ν i k = collected h (ν' i) k

/-- The groups under their new names. -/
def renameG (h : Fin m' → Fin m) (ν' : Fin n → Fin m' → ℝ) (g : Groups n m) : Groups n m' :=
  ⟨ν', fun k => g.V (h k), fun k => g.S (h k)⟩

theorem rename_cmol {h : Fin m' → Fin m} {ν' : Fin n → Fin m' → ℝ} {g : Groups n m} (hν : Renames h ν' g)
    (x : Fin n → ℝ) : cmol2seg (renameG h ν' g) x = cmol2seg g x := by
  unfold cmol2seg
  refine Finset.sum_congr rfl fun i _ => ?_
  have e : ∀ j, x i * g.ν i j * g.V j * g.S j = collected h (ν' i) j * (x i * g.V j * g.S j) := fun j => by
    rw [hν i j]; ring
  simp only [e]
  rw [collected_sum h (ν' i) fun j => x i * g.V j * g.S j]
  exact Finset.sum_congr rfl fun j _ => by simp only [renameG]; ring

theorem rename_xsk {h : Fin m' → Fin m} {ν' : Fin n → Fin m' → ℝ} {g : Groups n m} (hν : Renames h ν' g)
    (x : Fin n → ℝ) : xsk g x = collected h (xsk (renameG h ν' g) x) := by
  funext k
  unfold xsk collected
  rw [rename_cmol hν]
  have e : ∑ i, x i * g.ν i k = ∑ k', if h k' = k then ∑ i, x i * ν' i k' else 0 := by
    have : ∀ i, x i * g.ν i k = ∑ k', if h k' = k then x i * ν' i k' else 0 := fun i => by
      rw [hν i k, collected, Finset.mul_sum]
      exact Finset.sum_congr rfl fun k' _ => by split <;> simp
    simp only [this]
    rw [Finset.sum_comm]
    exact Finset.sum_congr rfl fun k' _ => by split <;> simp
  rw [e, Finset.sum_mul, Finset.sum_mul, Finset.sum_div]
  refine Finset.sum_congr rfl fun k' _ => ?_
  split
  · next hk => simp only [renameG, hk]
  · simp

/-- A sum over pairs of groups is the sum over pairs of new names. -/
theorem rename_pairs {h : Fin m' → Fin m} {ν' : Fin n → Fin m' → ℝ} {g : Groups n m} (hν : Renames h ν' g)
    (x : Fin n → ℝ) (F : Fin m → Fin m → ℝ) :
    ∑ k, ∑ l, F (h k) (h l) * xskl (renameG h ν' g) x k l = ∑ k, ∑ l, F k l * xskl g x k l := by
  have e := collected_sum2 h (xsk (renameG h ν' g) x) F
  rw [← rename_xsk hν x] at e
  unfold xskl
  calc _ = ∑ k, ∑ l, xsk (renameG h ν' g) x k * xsk (renameG h ν' g) x l * F (h k) (h l) :=
        Finset.sum_congr rfl fun k _ => Finset.sum_congr rfl fun l _ => by ring
    _ = _ := e.symm
    _ = _ := Finset.sum_congr rfl fun k _ => Finset.sum_congr rfl fun l _ => by ring

/-- The moments of the diameters; the square root of a square needs non-negative amounts. -/
theorem rename_moment {h : Fin m' → Fin m} {ν' : Fin n → Fin m' → ℝ} {g : Groups n m} (hν : Renames h ν' g)
    (x : Fin n → ℝ) (hx : ∀ i, 0 ≤ x i) (h0 : ∀ i k, 0 ≤ ν' i k) (hV : ∀ k, 0 ≤ g.V k) (hS : ∀ k, 0 ≤ g.S k)
    (M ρ : ℝ) (d : Fin m → Fin m → ℝ) (q : ℕ) :
    moment M ρ (cmol2seg (renameG h ν' g) x) (xskl (renameG h ν' g) x) (fun k l => d (h k) (h l)) q
      = moment M ρ (cmol2seg g x) (xskl g x) d q := by
  have hC : 0 ≤ cmol2seg (renameG h ν' g) x :=
    Finset.sum_nonneg fun i _ => Finset.sum_nonneg fun k _ =>
      mul_nonneg (mul_nonneg (mul_nonneg (hx i) (h0 i k)) (hV _)) (hS _)
  have hp : ∀ k, 0 ≤ xsk (renameG h ν' g) x k := fun k =>
    div_nonneg (mul_nonneg (mul_nonneg (Finset.sum_nonneg fun i _ => mul_nonneg (hx i) (h0 i k)) (hV _)) (hS _)) hC
  have hp' : ∀ k, 0 ≤ xsk g x k := fun k => by
    rw [rename_xsk hν x]
    exact Finset.sum_nonneg fun k' _ => by split; exacts [hp k', le_rfl]
  have r : ∀ {a : ℕ} (w : Fin a → ℝ), (∀ k, 0 ≤ w k) → ∀ k, √(w k * w k) = w k := fun w hw k => by
    rw [← sq, Real.sqrt_sq (hw k)]
  simp only [moment, xskl, r _ hp, r _ hp', rename_cmol hν]
  congr 2
  rw [← collected_sum h (xsk (renameG h ν' g) x) fun k => d k k ^ q, ← rename_xsk hν x]

/-- The parameter set under the new names: equal parameters for all names of a group. -/
def renameP (h : Fin m' → Fin m) (ν' : Fin n → Fin m' → ℝ) (P : Mie n m) : Mie n m' where
  g := renameG h ν' P.g
  ε := fun k l => P.ε (h k) (h l)
  σ := fun k l => P.σ (h k) (h l)
  lr := fun k l => P.lr (h k) (h l)
  la := fun k l => P.la (h k) (h l)
  bε := fun k => P.bε (h k)
  bσ := fun k => P.bσ (h k)
  blr := fun k => P.blr (h k)
  bla := fun k => P.bla (h k)
  rings := P.rings

private theorem zx_rename {h : Fin m' → Fin m} {ν' : Fin n → Fin m' → ℝ} {P : Mie n m} (hν : Renames h ν' P.g)
    (M ρ T : ℝ) (x : Fin n → ℝ) : zx M (renameP h ν' P) ρ T x = zx M P ρ T x := by
  have e := rename_pairs hν x fun k l => dkl P T k l ^ 3 * M
  simp only [zx, zetax]
  rw [show cmol2seg (renameP h ν' P).g x = cmol2seg P.g x from rename_cmol hν x]
  congr 2
  calc _ = ∑ k, ∑ l, dkl P T (h k) (h l) ^ 3 * M * xskl (renameG h ν' P.g) x k l :=
        Finset.sum_congr rfl fun k _ => Finset.sum_congr rfl fun l _ => mul_comm _ _
    _ = _ := e
    _ = _ := Finset.sum_congr rfl fun k _ => Finset.sum_congr rfl fun l _ => mul_comm _ _

private theorem zxstar_rename {h : Fin m' → Fin m} {ν' : Fin n → Fin m' → ℝ} {P : Mie n m} (hν : Renames h ν' P.g)
    (M ρ : ℝ) (x : Fin n → ℝ) : zxstar M (renameP h ν' P) ρ x = zxstar M P ρ x := by
  have e := rename_pairs hν x fun k l => P.σ k l ^ 3 * M
  simp only [zxstar, zetax]
  rw [show cmol2seg (renameP h ν' P).g x = cmol2seg P.g x from rename_cmol hν x]
  congr 2
  calc _ = ∑ k, ∑ l, P.σ (h k) (h l) ^ 3 * M * xskl (renameG h ν' P.g) x k l :=
        Finset.sum_congr rfl fun k _ => Finset.sum_congr rfl fun l _ => mul_comm _ _
    _ = _ := e
    _ = _ := Finset.sum_congr rfl fun k _ => Finset.sum_congr rfl fun l _ => mul_comm _ _

/-- **C124** (groups, perturbation terms): a group listed under several names with equal parameters. -/
theorem c124_groups_mie (h : Fin m' → Fin m) (ν' : Fin n → Fin m' → ℝ) (P : Mie n m) (hν : Renames h ν' P.g)
    (M ρ T : ℝ) (x : Fin n → ℝ) :
    afirst M (renameP h ν' P) ρ T x = afirst M P ρ T x ∧ asecond M (renameP h ν' P) ρ T x = asecond M P ρ T x ∧
    athird M (renameP h ν' P) ρ T x = athird M P ρ T x := by
  have hC : cmol2seg (renameP h ν' P).g x = cmol2seg P.g x := rename_cmol hν x
  refine ⟨?_, ?_, ?_⟩
  · simp only [afirst, hC, zx_rename hν]
    congr 1
    exact rename_pairs hν x fun k l => a1ii M ρ (cmol2seg P.g x) (dkl P T k l) (P.la k l) (P.lr k l) (x0kl P T k l)
      (P.ε k l) (zx M P ρ T x)
  · simp only [asecond, hC, zx_rename hν, zxstar_rename hν]
    congr 1
    exact rename_pairs hν x fun k l => a2NoChi M ρ (cmol2seg P.g x) (dkl P T k l) (P.la k l) (P.lr k l) (x0kl P T k l)
      (P.ε k l) (zx M P ρ T x) * (1 + chi (zxstar M P ρ x) (alphaOf (P.lr k l) (P.la k l)))
  · simp only [athird, hC, zxstar_rename hν]
    congr 1
    exact rename_pairs hν x fun k l => a3 (zxstar M P ρ x) (P.ε k l) (alphaOf (P.lr k l) (P.la k l))

/-- **C124** (groups, hard spheres). -/
theorem c124_groups_mie_hs (h : Fin m' → Fin m) (ν' : Fin n → Fin m' → ℝ) (P : Mie n m) (hν : Renames h ν' P.g)
    (M ρ T : ℝ) (x : Fin n → ℝ) (hx : ∀ i, 0 ≤ x i) (h0 : ∀ i k, 0 ≤ ν' i k) (hV : ∀ k, 0 ≤ P.g.V k)
    (hS : ∀ k, 0 ≤ P.g.S k) : ahs M (renameP h ν' P) ρ T x = ahs M P ρ T x := by
  unfold ahs mieHardSphere
  congr 1
  funext q
  exact rename_moment hν x hx h0 hV hS M ρ (dklOf (dk P T)) q

theorem zfrac_rename {h : Fin m' → Fin m} {ν' : Fin n → Fin m' → ℝ} {P : Mie n m} (hν : Renames h ν' P.g)
    (i : Fin n) : ∑ k, zki (renameP h ν' P) i k = ∑ k, zki P i k ∧
      zfrac P i = collected h (zfrac (renameP h ν' P) i) := by
  have e : ∑ k, zki (renameP h ν' P) i k = ∑ k, zki P i k := by
    have := collected_sum h (ν' i) fun k => P.g.V k * P.g.S k
    have e1 : ∀ k, zki P i k = collected h (ν' i) k * (P.g.V k * P.g.S k) := fun k => by
      rw [zki, hν i k]; ring
    have e2 : ∀ k, zki (renameP h ν' P) i k = ν' i k * (P.g.V (h k) * P.g.S (h k)) := fun k => by
      simp only [zki, renameP, renameG]; ring
    simp only [e1, e2, this]
  refine ⟨e, ?_⟩
  funext k
  unfold zfrac collected
  rw [e, zki, hν i k, collected, Finset.sum_mul, Finset.sum_mul, Finset.sum_div]
  refine Finset.sum_congr rfl fun k' _ => ?_
  split
  · next hk => simp only [zki, renameP, renameG, hk]
  · simp

/-- **C124** (groups, chain term). -/
theorem c124_groups_mie_chain (h : Fin m' → Fin m) (ν' : Fin n → Fin m' → ℝ) (P : Mie n m) (hν : Renames h ν' P.g)
    (M ρ T : ℝ) (x : Fin n → ℝ) : achain M (renameP h ν' P) ρ T x = achain M P ρ T x := by
  have av : ∀ (q : Fin m → Fin m → ℝ) i, avg (renameP h ν' P) (fun k l => q (h k) (h l)) i = avg P q i := fun q i => by
    have := collected_sum2 h (zfrac (renameP h ν' P) i) q
    rw [← (zfrac_rename hν i).2] at this
    exact this.symm
  have he : ∀ i, epsii (renameP h ν' P) i = epsii P i := av P.ε
  have hr : ∀ i, lrii (renameP h ν' P) i = lrii P i := av P.lr
  have ha : ∀ i, laii (renameP h ν' P) i = laii P i := av P.la
  have hs : ∀ i, sigii (renameP h ν' P) i = sigii P i := fun i => by
    unfold sigii; rw [← av (fun k l => P.σ k l ^ 3)]; rfl
  have hd : ∀ i, dii (renameP h ν' P) T i = dii P T i := fun i => by
    unfold dii; rw [← av (fun k l => dkl P T k l ^ 3)]; rfl
  have hx : ∀ i, x0ii (renameP h ν' P) T i = x0ii P T i := fun i => by unfold x0ii; rw [hs, hd]
  have hb : ∀ i, beadsum (renameP h ν' P) i = beadsum P i := fun i => by
    unfold beadsum
    congr 1
    exact (zfrac_rename hν i).1
  have hC : cmol2seg (renameP h ν' P).g x = cmol2seg P.g x := rename_cmol hν x
  simp only [achain, hb, gii, g1, g2, he, hr, ha, hd, hx, zx_rename hν, zxstar_rename hν, hC]

/-- Two names for the one group of a chain of two segments. -/
example : Renames (fun _ : Fin 2 => (0 : Fin 1)) (fun _ _ => 1) (⟨fun _ _ => 2, fun _ => 1, fun _ => 1⟩ : Groups 1 1) := by
  intro i k
  fin_cases k
  simp [collected]

/-- A substance listed twice, with a third of it under the first name. -/
example : collected (fun _ : Fin 2 => (0 : Fin 1)) ![1 / 3, 2 / 3] 0 = 1 := by
  simp [collected, Fin.sum_univ_two]; norm_num

end Verif.Props
