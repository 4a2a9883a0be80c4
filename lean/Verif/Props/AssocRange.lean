import Verif.Props.AssocIntegral

/-!
# C127: the sign of the correlation of the association integral

The correlation is a polynomial with coefficients of both signs.  A test that expands it around the centre of a cell and
halves cells on which the bound is not good enough shows that it is positive over a range of states; outside that range
it is not.
-/

namespace Verif.Props
open Verif Verif.Saft Verif.GammaMie Verif.MieTerms Verif.AssocIntegral

/-! ### Polynomials as lists of coefficients -/

/-- The value of a polynomial in one variable. -/
private def ev : List ℚ → ℝ → ℝ
  | [], _ => 0
  | c :: cs, x => c + x * ev cs x

private def padd : List ℚ → List ℚ → List ℚ
  | [], q => q
  | p, [] => p
  | a :: p, b :: q => (a + b) :: padd p q

private def psmul (c : ℚ) (p : List ℚ) : List ℚ := p.map (c * ·)

/-- The polynomial around `a`. -/
private def shift (a : ℚ) : List ℚ → List ℚ
  | [] => []
  | c :: cs => padd [c] (padd (psmul a (shift a cs)) (0 :: shift a cs))

/-- The sum of the absolute values of the terms at `h`. -/
private def absSum (h : ℚ) : List ℚ → ℚ
  | [] => 0
  | c :: cs => |c| + h * absSum h cs

private theorem ev_padd (p q : List ℚ) (x : ℝ) : ev (padd p q) x = ev p x + ev q x := by
  induction p generalizing q with
  | nil => simp [padd, ev]
  | cons a p ih =>
    cases q with
    | nil => simp [padd, ev]
    | cons b q => simp only [padd, ev, ih]; push_cast; ring

private theorem ev_psmul (c : ℚ) (p : List ℚ) (x : ℝ) : ev (psmul c p) x = c * ev p x := by
  induction p with
  | nil => simp [psmul, ev]
  | cons a p ih =>
    have : ev (psmul c (a :: p)) x = (c * a : ℚ) + x * ev (psmul c p) x := rfl
    rw [this, ih, ev]; push_cast; ring

private theorem ev_shift (a : ℚ) (p : List ℚ) (x : ℝ) : ev (shift a p) x = ev p (a + x) := by
  induction p with
  | nil => rfl
  | cons c cs ih => simp only [shift, ev_padd, ev_psmul, ev, ih]; push_cast; ring

private theorem absSum_nonneg (h : ℚ) (hh : 0 ≤ h) (p : List ℚ) : 0 ≤ absSum h p := by
  induction p with
  | nil => exact le_rfl
  | cons c cs ih => exact add_nonneg (abs_nonneg _) (mul_nonneg hh ih)

private theorem ev_abs (h : ℚ) (p : List ℚ) (x : ℝ) (hx : |x| ≤ h) : |ev p x| ≤ absSum h p := by
  have hh : (0 : ℝ) ≤ h := (abs_nonneg x).trans hx
  induction p with
  | nil => simp [ev, absSum]
  | cons c cs ih =>
    simp only [ev, absSum]
    push_cast
    refine (abs_add_le _ _).trans (add_le_add le_rfl ?_)
    rw [abs_mul]
    exact mul_le_mul hx ih (abs_nonneg _) hh

/-- The value of a polynomial in two variables: the coefficients are polynomials in the second. -/
private def ev2 : List (List ℚ) → ℝ → ℝ → ℝ
  | [], _, _ => 0
  | c :: cs, x, y => ev c y + x * ev2 cs x y

private def padd2 : List (List ℚ) → List (List ℚ) → List (List ℚ)
  | [], q => q
  | p, [] => p
  | a :: p, b :: q => padd a b :: padd2 p q

private def psmul2 (c : ℚ) (p : List (List ℚ)) : List (List ℚ) := p.map (psmul c)

private def shiftOuter (a : ℚ) : List (List ℚ) → List (List ℚ)
  | [] => []
  | c :: cs => padd2 [c] (padd2 (psmul2 a (shiftOuter a cs)) ([] :: shiftOuter a cs))

private def absSum2 (u v : ℚ) : List (List ℚ) → ℚ
  | [] => 0
  | c :: cs => absSum v c + u * absSum2 u v cs

private theorem ev2_padd (p q : List (List ℚ)) (x y : ℝ) : ev2 (padd2 p q) x y = ev2 p x y + ev2 q x y := by
  induction p generalizing q with
  | nil => simp [padd2, ev2]
  | cons a p ih =>
    cases q with
    | nil => simp [padd2, ev2]
    | cons b q => simp only [padd2, ev2, ih, ev_padd]; ring

private theorem ev2_psmul (c : ℚ) (p : List (List ℚ)) (x y : ℝ) : ev2 (psmul2 c p) x y = c * ev2 p x y := by
  induction p with
  | nil => simp [psmul2, ev2]
  | cons a p ih =>
    have : ev2 (psmul2 c (a :: p)) x y = ev (psmul c a) y + x * ev2 (psmul2 c p) x y := rfl
    rw [this, ih, ev_psmul, ev2]; ring

private theorem ev2_shiftOuter (a : ℚ) (p : List (List ℚ)) (x y : ℝ) :
    ev2 (shiftOuter a p) x y = ev2 p (a + x) y := by
  induction p with
  | nil => rfl
  | cons c cs ih => simp only [shiftOuter, ev2_padd, ev2_psmul, ev2, ih, ev]; ring

private theorem ev2_shiftInner (b : ℚ) (p : List (List ℚ)) (x y : ℝ) :
    ev2 (p.map (shift b)) x y = ev2 p x (b + y) := by
  induction p with
  | nil => rfl
  | cons c cs ih => simp only [List.map_cons, ev2, ev_shift, ih]

private theorem ev2_abs (u v : ℚ) (p : List (List ℚ)) (x y : ℝ) (hx : |x| ≤ u) (hy : |y| ≤ v) :
    |ev2 p x y| ≤ absSum2 u v p := by
  have hu : (0 : ℝ) ≤ u := (abs_nonneg x).trans hx
  induction p with
  | nil => simp [ev2, absSum2]
  | cons c cs ih =>
    simp only [ev2, absSum2]
    push_cast
    refine (abs_add_le _ _).trans (add_le_add (ev_abs v c y hy) ?_)
    rw [abs_mul]
    exact mul_le_mul hx ih (abs_nonneg _) hu

/-- A lower bound over the cell of half widths `u`, `v` around the origin. -/
private def low (u v : ℚ) : List (List ℚ) → ℚ
  | (d :: ds) :: cs => d - v * absSum v ds - u * absSum2 u v cs
  | _ => 0

private theorem low_spec (u v : ℚ) (p : List (List ℚ)) (x y : ℝ) (hx : |x| ≤ u) (hy : |y| ≤ v) (h : 0 < low u v p) :
    (low u v p : ℝ) ≤ ev2 p x y := by
  match p, h with
  | (d :: ds) :: cs, _ =>
    have hu : (0 : ℝ) ≤ u := (abs_nonneg x).trans hx
    have hv : (0 : ℝ) ≤ v := (abs_nonneg y).trans hy
    simp only [low, ev2, ev]
    push_cast
    have h1 : |y * ev ds y| ≤ v * absSum v ds := by
      rw [abs_mul]; exact mul_le_mul hy (ev_abs v ds y hy) (abs_nonneg _) hv
    have h2 : |x * ev2 cs x y| ≤ u * absSum2 u v cs := by
      rw [abs_mul]; exact mul_le_mul hx (ev2_abs u v cs x y hx hy) (abs_nonneg _) hu
    have := abs_le.mp h1
    have := abs_le.mp h2
    linarith
  | [], h => simp [low] at h
  | [] :: _, h => simp [low] at h

/-- Positive by more than `κ` on the cell `[r₀, r₁] × [t₀, t₁]`: the bound at the centre, or the same for both halves. -/
private def certified (κ : ℚ) (p : List (List ℚ)) : ℕ → ℚ → ℚ → ℚ → ℚ → Bool
  | 0, _, _, _, _ => false
  | k + 1, r₀, r₁, t₀, t₁ =>
    let a := (r₀ + r₁) / 2
    let b := (t₀ + t₁) / 2
    let q := (shiftOuter a p).map (shift b)
    decide (0 < low ((r₁ - r₀) / 2) ((t₁ - t₀) / 2) q ∧ κ < low ((r₁ - r₀) / 2) ((t₁ - t₀) / 2) q) ||
      (if (r₁ - r₀) * 6 > t₁ - t₀ then certified κ p k r₀ a t₀ t₁ && certified κ p k a r₁ t₀ t₁
        else certified κ p k r₀ r₁ t₀ b && certified κ p k r₀ r₁ b t₁)

private theorem certified_spec (κ : ℚ) (p : List (List ℚ)) (k : ℕ) (r₀ r₁ t₀ t₁ : ℚ)
    (h : certified κ p k r₀ r₁ t₀ t₁ = true) (r t : ℝ) (hr : (r₀ : ℝ) ≤ r ∧ r ≤ r₁) (ht : (t₀ : ℝ) ≤ t ∧ t ≤ t₁) :
    (κ : ℝ) < ev2 p r t := by
  induction k generalizing r₀ r₁ t₀ t₁ with
  | zero => simp [certified] at h
  | succ k ih =>
    rw [certified] at h
    simp only [Bool.or_eq_true, decide_eq_true_eq] at h
    rcases h with ⟨h0, hk⟩ | h
    · set a : ℚ := (r₀ + r₁) / 2 with ha
      set b : ℚ := (t₀ + t₁) / 2 with hb
      have hx : |r - a| ≤ ((r₁ - r₀) / 2 : ℚ) := by
        rw [abs_le, ha]; push_cast; constructor <;> linarith [hr.1, hr.2]
      have hy : |t - b| ≤ ((t₁ - t₀) / 2 : ℚ) := by
        rw [abs_le, hb]; push_cast; constructor <;> linarith [ht.1, ht.2]
      have := low_spec _ _ _ _ _ hx hy h0
      rw [ev2_shiftInner, ev2_shiftOuter, add_sub_cancel, add_sub_cancel] at this
      exact lt_of_lt_of_le (by exact_mod_cast hk) this
    · split_ifs at h with hc
      · rw [Bool.and_eq_true] at h
        rcases le_total r (((r₀ + r₁) / 2 : ℚ) : ℝ) with hm | hm
        · exact ih _ _ _ _ h.1 ⟨hr.1, hm⟩ ht
        · exact ih _ _ _ _ h.2 ⟨hm, hr.2⟩ ht
      · rw [Bool.and_eq_true] at h
        rcases le_total t (((t₀ + t₁) / 2 : ℚ) : ℝ) with hm | hm
        · exact ih _ _ _ _ h.1 hr ⟨ht.1, hm⟩
        · exact ih _ _ _ _ h.2 hr ⟨hm, ht.2⟩

/-! ### The table -/

private theorem ev_eq_sum (p : List ℚ) (x : ℝ) (k : ℕ) (h : p.length ≤ k) :
    ev p x = ∑ q ∈ Finset.range k, ((p.getD q 0 : ℚ) : ℝ) * x ^ q := by
  induction p generalizing k with
  | nil => simp [ev]
  | cons c cs ih =>
    obtain ⟨k, rfl⟩ : ∃ j, k = j + 1 := ⟨k - 1, by simp at h; omega⟩
    rw [Finset.sum_range_succ', ev, ih k (by simpa using h), Finset.mul_sum]
    simp only [List.getD_cons_succ, List.getD_cons_zero, pow_zero, mul_one]
    rw [add_comm]
    congr 1
    exact Finset.sum_congr rfl fun q _ => by ring

private theorem ev2_eq_sum (p : List (List ℚ)) (x y : ℝ) (k l : ℕ) (h : p.length ≤ k) (hl : ∀ c ∈ p, c.length ≤ l) :
    ev2 p x y = ∑ q ∈ Finset.range k, x ^ q * ev (p.getD q []) y := by
  induction p generalizing k with
  | nil => simp [ev2, ev]
  | cons c cs ih =>
    obtain ⟨k, rfl⟩ : ∃ j, k = j + 1 := ⟨k - 1, by simp at h; omega⟩
    rw [Finset.sum_range_succ', ev2, ih k (by simpa using h) (fun c hc => hl c (by simp [hc])), Finset.mul_sum]
    simp only [List.getD_cons_succ, List.getD_cons_zero, pow_zero, one_mul]
    rw [add_comm]
    congr 1
    exact Finset.sum_congr rfl fun q _ => by ring

private theorem rows_short : ∀ p < 11, (cij.getD p []).length ≤ 11 := by decide

private theorem series_eq (s ρ τ : ℝ) : series s ρ τ = ev2 cij (s * ρ) τ := by
  rw [c126_polynomial, ev2_eq_sum cij (s * ρ) τ 11 11 (by decide) (by decide)]
  refine Finset.sum_congr rfl fun p hp => ?_
  rw [ev_eq_sum _ _ 11 (rows_short p (Finset.mem_range.mp hp)), Finset.mul_sum]
  exact Finset.sum_congr rfl fun q _ => by rw [coef]; ring

private def neg (p : List (List ℚ)) : List (List ℚ) := psmul2 (-1) p

private theorem ev2_neg (p : List (List ℚ)) (x y : ℝ) : ev2 (neg p) x y = -ev2 p x y := by
  rw [neg, ev2_psmul]; simp

private def below (c : ℚ) (p : List (List ℚ)) : List (List ℚ) := padd2 [[c]] (neg p)

private theorem ev2_below (c : ℚ) (p : List (List ℚ)) (x y : ℝ) : ev2 (below c p) x y = c - ev2 p x y := by
  rw [below, ev2_padd, ev2_neg]; simp [ev2, ev]; ring

private theorem cert_lower : certified (1 / 200) cij 13 0 (9 / 8) 0 10 = true := by decide +kernel
private theorem cert_upper : certified 0 (below (1 / 10) cij) 12 0 (9 / 8) 0 10 = true := by decide +kernel
private theorem cert_negative : certified 0 (neg cij) 8 (3 / 2) (3 / 2) (1 / 2) 8 = true := by decide +kernel
private theorem cert_hot : certified 5 cij 1 0 0 15 15 = true := by decide +kernel

/-- **C127** (range): for every reduced density up to 1.125 and every reduced temperature up to 10 the correlation lies
between 0.005 and 0.1. -/
theorem c127_range (s ρ τ : ℝ) (h0 : 0 ≤ s * ρ) (h1 : s * ρ ≤ 9 / 8) (h2 : 0 ≤ τ) (h3 : τ ≤ 10) :
    1 / 200 < series s ρ τ ∧ series s ρ τ < 1 / 10 := by
  rw [series_eq]
  constructor
  · have := certified_spec _ _ _ _ _ _ _ cert_lower (s * ρ) τ ⟨by simpa using h0, by push_cast; exact h1⟩
      ⟨by simpa using h2, by push_cast; exact h3⟩
    push_cast at this; exact this
  · have := certified_spec _ _ _ _ _ _ _ cert_upper (s * ρ) τ ⟨by simpa using h0, by push_cast; exact h1⟩
      ⟨by simpa using h2, by push_cast; exact h3⟩
    rw [ev2_below] at this
    push_cast at this; linarith

variable {n m : ℕ}

/-- **C127** (association strengths): within the range, the correlation that multiplies every association strength is
positive, for every pair of components. -/
theorem c127_positive_partial (M : ℝ) (P : Mie n m) (ρ T : ℝ) (x : Fin n → ℝ) (i j : Fin n)
    (h0 : 0 ≤ sigmax3 M P.σ (xskl P.g x) * ρ) (h1 : sigmax3 M P.σ (xskl P.g x) * ρ ≤ 9 / 8)
    (h2 : 0 ≤ T / epsilonij (sigii P) (epsii P) i j) (h3 : T / epsilonij (sigii P) (epsii P) i j ≤ 10) :
    0 < iij M P ρ T x i j ∧ iij M P ρ T x i j < 1 / 10 := by
  have := c127_range _ ρ _ h0 h1 h2 h3
  exact ⟨lt_trans (by norm_num) this.1, this.2⟩

/-- **C127** (beyond the range, density): at the reduced density 1.5 the correlation is negative for every reduced
temperature between 0.5 and 8. -/
theorem c127_negative (s ρ τ : ℝ) (h : s * ρ = 3 / 2) (h2 : 1 / 2 ≤ τ) (h3 : τ ≤ 8) : series s ρ τ < 0 := by
  rw [series_eq, h]
  have := certified_spec _ _ _ _ _ _ _ cert_negative (3 / 2) τ ⟨by push_cast; exact le_rfl, by push_cast; exact le_rfl⟩
    ⟨by push_cast; exact h2, by push_cast; exact h3⟩
  rw [ev2_neg] at this
  push_cast at this; linarith

/-- **C127** (beyond the range, temperature): at the reduced temperature 15 and no density the correlation is more than
fifty times its greatest value within the range. -/
theorem c127_hot (s : ℝ) : 5 < series s 0 15 := by
  rw [series_eq, mul_zero]
  have := certified_spec _ _ _ _ _ _ _ cert_hot 0 15 ⟨by simp, by simp⟩ ⟨by push_cast; exact le_rfl, by push_cast; exact le_rfl⟩
  push_cast at this; exact this

/-- A fluid of single Lennard-Jones spheres. -/
noncomputable def sphere : Mie 1 1 where
  g := ⟨fun _ _ => 1, fun _ => 1, fun _ => 1⟩
  ε := fun _ _ => 100
  σ := fun _ _ => 1
  lr := fun _ _ => 12
  la := fun _ _ => 6
  bε := fun _ => 100
  bσ := fun _ => 1
  blr := fun _ => 12
  bla := fun _ => 6
  rings := fun _ => 0

/-- **C127**, where it fails: for Lennard-Jones spheres there are densities that the equation of state accepts (the packing
fraction is below one) at which the correlation, and with it every association strength, is negative. -/
theorem c127_violated_spheres (M T : ℝ) (hM : 0 < M) (h1 : 50 ≤ T) (h2 : T ≤ 800) :
    ∃ ρ, 0 < ρ ∧ (∃ a, amonomer M sphere [ρ] T (fun _ => 1) = .ok [a]) ∧
      iij M sphere ρ T (fun _ => 1) 0 0 < 0 := by
  have hw : xskl sphere.g (fun _ => 1) = fun _ _ => 1 := by
    funext k l; simp [xskl, xsk, cmol2seg, sphere]
  have hC : cmol2seg sphere.g (fun _ => 1) = 1 := by simp [cmol2seg, sphere]
  have hs : sigmax3 M sphere.σ (xskl sphere.g fun _ => 1) = M := by rw [hw]; simp [sigmax3, sphere]
  have hσ : sigii sphere 0 = 1 := by simp [sigii, avg, zfrac, zki, sphere]
  have hε : epsii sphere 0 = 100 := by simp [epsii, avg, zfrac, zki, sphere]
  refine ⟨3 / (2 * M), by positivity, ?_, ?_⟩
  · have hd : dk sphere T 0 < 1 :=
      c60_diameter_lt_sigma _ _ _ _ _ (by norm_num [sphere]) (by norm_num [sphere]) (by linarith) (by norm_num [sphere])
        (by norm_num [sphere])
    have hd0 : 0 < dk sphere T 0 :=
      c60_diameter_pos _ _ _ _ _ (by norm_num [sphere]) (by norm_num [sphere]) (by linarith) (by norm_num [sphere])
        (by norm_num [sphere])
    have hmax : densityMax M (cmol2seg sphere.g fun _ => 1) (xskl sphere.g fun _ => 1) (dkl sphere T) 1
        = 6 / (Real.pi * dk sphere T 0 ^ 3) / M := by
      rw [hC, hw]; simp [densityMax, dkl, dklOf]
    have hlt : 3 / (2 * M) < densityMax M (cmol2seg sphere.g fun _ => 1) (xskl sphere.g fun _ => 1) (dkl sphere T) 1 := by
      rw [hmax, ← div_div, div_lt_div_iff_of_pos_right hM, lt_div_iff₀ (by have := Real.pi_pos; positivity)]
      have h3 : dk sphere T 0 ^ 3 ≤ 1 := pow_le_one₀ hd0.le hd.le
      have h4 := Real.pi_lt_four
      nlinarith [Real.pi_pos, pow_pos hd0 3]
    refine ⟨_, (c120_single _ _ _ _ _).trans (if_neg ?_)⟩
    rintro (h | h)
    · exact absurd hlt (not_lt.mpr h)
    · exact absurd (show (0 : ℝ) < 3 / (2 * M) by positivity) (not_lt.mpr h.le)
  · rw [c126_like M sphere _ T _ 0 (by rw [hσ]; norm_num) (by rw [hε]; norm_num), hs, hε]
    exact c127_negative _ _ _ (by field_simp) (by linarith) (by linarith)

/-- The hypotheses of `c127_positive_partial` at room temperature. -/
example (M : ℝ) (hM : 0 < M) : 0 < iij M sphere (1 / M) 300 (fun _ => 1) 0 0 := by
  have hs : sigmax3 M sphere.σ (xskl sphere.g fun _ => 1) = M := by
    simp [sigmax3, xskl, xsk, cmol2seg, sphere]
  have hσ : sigii sphere 0 = 1 := by simp [sigii, avg, zfrac, zki, sphere]
  have hε : epsii sphere 0 = 100 := by simp [epsii, avg, zfrac, zki, sphere]
  have he : epsilonij (sigii sphere) (epsii sphere) 0 0 = 100 := by
    rw [c126_cross_self _ _ _ (by rw [hσ]; norm_num) (by rw [hε]; norm_num), hε]
  refine (c127_positive_partial M sphere (1 / M) 300 _ 0 0 ?_ ?_ ?_ ?_).1
  · rw [hs]; positivity
  · rw [hs, mul_one_div, div_self hM.ne']; norm_num
  · rw [he]; norm_num
  · rw [he]; norm_num

end Verif.Props
