import Verif.Props.AssocMatrices
import Mathlib.Analysis.SpecialFunctions.Pow.Real
import Mathlib.Tactic.FieldSimp
import Mathlib.Tactic.Ring

/-!
# C108: association parameters found under either order of the sites, and combined where none is given
-/

set_option linter.unusedSectionVars false

namespace Verif.Props
open Verif Verif.Assoc

section
variable {K : Type} [Field K] [LinearOrder K]

/-- What a successful treatment of a pair of sites of one group writes: the entry of the library,
whichever of the two orders of the sites it was filed under (the loop order first). -/
theorem c108_self (L : Lib K ℕ) (i a b : ℕ) (hab : a ≠ b) {m m' : Mats K} {ε : K}
    (he : L.eps i a b = some ε ∨ (L.eps i a b = none ∧ L.eps i b a = some ε))
    (h : selfCell L i a b m = .ok m') : m'.eps i i a b = ε ∧ m'.eps i i b a = ε := by
  have ho : (L.eps i a b).or (L.eps i b a) = some ε := by
    rcases he with h | ⟨h1, h2⟩
    · rw [h]; rfl
    · rw [h1, h2]; rfl
  unfold selfCell at h
  simp only [orSwap, ho] at h
  split at h
  · cases h
  · split at h
    · cases h
    · split at h
      · cases h
      · obtain rfl := Except.ok.inj h
        simp only [put2_eq]
        simp [hab]

/-- The bonding volume, likewise. -/
theorem c108_self_volume (L : Lib K ℕ) (i a b : ℕ) {m m' : Mats K} {ε v : K}
    (he : L.eps i a b = some ε ∨ (L.eps i a b = none ∧ L.eps i b a = some ε))
    (hv : L.vol i a b = some v ∨ (L.vol i a b = none ∧ L.vol i b a = some v))
    (h : selfCell L i a b m = .ok m') : m'.vol i i a b = v ∧ m'.vol i i b a = v ∧ m'.fK = true := by
  have ho : (L.eps i a b).or (L.eps i b a) = some ε := by
    rcases he with h | ⟨h1, h2⟩
    · rw [h]; rfl
    · rw [h1, h2]; rfl
  have hw : (L.vol i a b).or (L.vol i b a) = some v := by
    rcases hv with h | ⟨h1, h2⟩
    · rw [h]; rfl
    · rw [h1, h2]; rfl
  unfold selfCell at h
  simp only [orSwap, ho, hw] at h
  split at h
  · cases h
  · split at h
    · cases h
    · split at h
      · cases h
      · obtain rfl := Except.ok.inj h
        simp only [putOpt]
        rw [put2_eq, put2_eq]
        simp

/-- C108: an energy of a group without a bonding volume or a cutoff distance, a bonding volume and a
cutoff distance together, and either of them without an energy raise `ValueError`, whatever the order
of the sites in the names. -/
theorem c108_self_error (L : Lib K ℕ) (i a b : ℕ) (m : Mats K) :
    selfCell L i a b m = .error .valueError ↔
      let has := fun f : ℕ → ℕ → Option K => f a b ≠ none ∨ f b a ≠ none
      (has (L.eps i) ∧ ¬has (L.vol i) ∧ ¬has (L.rc i)) ∨ (has (L.vol i) ∧ has (L.rc i)) ∨
        (¬has (L.eps i) ∧ (has (L.vol i) ∨ has (L.rc i))) := by
  have hor : ∀ f : ℕ → ℕ → Option K, (orSwap f a b).isSome = decide (f a b ≠ none ∨ f b a ≠ none) := by
    intro f
    unfold orSwap
    cases f a b <;> cases f b a <;> simp
  have hno : ∀ f : ℕ → ℕ → Option K,
      (orSwap f a b).isNone = !decide (f a b ≠ none ∨ f b a ≠ none) := by
    intro f
    rw [← hor f]
    cases orSwap f a b <;> rfl
  simp only [selfCell, hor, hno]
  generalize orSwap (L.eps i) a b = e
  by_cases h1 : L.eps i a b ≠ none ∨ L.eps i b a ≠ none <;>
    by_cases h2 : L.vol i a b ≠ none ∨ L.vol i b a ≠ none <;>
      by_cases h3 : L.rc i a b ≠ none ∨ L.rc i b a ≠ none <;>
        cases e <;> simp_all

/-- The library with the sites of every entry in the other order. -/
def swapLib {ι : Type} (L : Lib K ι) : Lib K ι where
  eps g a b := L.eps g b a
  vol g a b := L.vol g b a
  rc g a b := L.rc g b a
  rd g a b := L.rd g b a

theorem orSwap_comm (f : ℕ → ℕ → Option K) (a b : ℕ) (h : f a b = none ∨ f b a = none) :
    orSwap f a b = orSwap (fun a b => f b a) a b := by
  unfold orSwap
  rcases h with h | h <;> simp only [h, Option.none_or, Option.or_none]

/-- C108: the order of the sites in the names of the entries of a group does not matter, as long as no
entry is given under both orders. -/
theorem c108_order (L : Lib K ℕ) (i a b : ℕ) (m : Mats K)
    (he : L.eps i a b = none ∨ L.eps i b a = none) (hv : L.vol i a b = none ∨ L.vol i b a = none)
    (hc : L.rc i a b = none ∨ L.rc i b a = none) (hd : L.rd i a b = none ∨ L.rd i b a = none) :
    selfCell L i a b m = selfCell (swapLib L) i a b m := by
  unfold selfCell
  rw [orSwap_comm _ a b he, orSwap_comm _ a b hv, orSwap_comm _ a b hc, orSwap_comm _ a b hd]
  rfl

/-- C108: an entry of the cross library whose sites are listed in the wrong order is written for the
sites exchanged. -/
theorem c108_exchange (c : Cfg K) (i a0 b0 j : ℕ) (v : K) (st : CrossSt K)
    (hbad : c.nk i st.a = 0 ∨ c.nk j st.b = 0) (h1 : c.nk i st.b ≠ 0) (h2 : c.nk j st.a ≠ 0) :
    ∃ st', crossHit c i a0 b0 j v st = .ok st' ∧ st'.m.eps i j st.b st.a = v ∧
      st'.m.eps j i st.a st.b = v := by
  cases e : crossHit c i a0 b0 j v st with
  | error x => simp [crossHit, h1, h2] at e
  | ok st' =>
    refine ⟨st', rfl, ?_⟩
    simp only [crossHit, hbad, h1, h2, or_self, and_false, if_false, if_true] at e
    obtain rfl := Except.ok.inj e
    simp only [put2_eq]
    simp

/-- C108: when the sites are listed as they are, the entry is written for them. -/
theorem c108_direct (c : Cfg K) (i a0 b0 j : ℕ) (v : K) (st : CrossSt K)
    (h1 : c.nk i st.a ≠ 0) (h2 : c.nk j st.b ≠ 0) :
    ∃ st', crossHit c i a0 b0 j v st = .ok st' ∧ st'.m.eps i j st.a st.b = v ∧
      st'.m.eps j i st.b st.a = v ∧ st'.a = st.a ∧ st'.b = st.b := by
  cases e : crossHit c i a0 b0 j v st with
  | error x => simp [crossHit, h1, h2] at e
  | ok st' =>
    refine ⟨st', rfl, ?_⟩
    simp only [crossHit, h1, h2, or_self, false_and, if_false] at e
    obtain rfl := Except.ok.inj e
    simp only [put2_eq]
    simp

/-- C108: the bonding parameters of the entry are written with it, for the same sites in both orders, if that kind of
parameter is in use, and nothing else is touched. -/
theorem c108_cross_bonds (c : Cfg K) (i a0 b0 j : ℕ) (v : K) (st : CrossSt K) {st' : CrossSt K}
    (h : crossHit c i a0 b0 j v st = .ok st') (i' j' a' b' : ℕ) :
    let here := (i' = i ∧ j' = j ∧ a' = st'.a ∧ b' = st'.b) ∨ (i' = j ∧ j' = i ∧ a' = st'.b ∧ b' = st'.a)
    st'.m.eps i' j' a' b' = (if here then v else st.m.eps i' j' a' b') ∧
      st'.m.vol i' j' a' b' =
        (if here ∧ st.m.fK = true then (c.cross.vol (i, j) a0 b0).getD (st.m.vol i' j' a' b') else st.m.vol i' j' a' b') ∧
      st'.m.rc i' j' a' b' =
        (if here ∧ st.m.frc = true then (c.cross.rc (i, j) a0 b0).getD (st.m.rc i' j' a' b') else st.m.rc i' j' a' b') ∧
      st'.m.rd i' j' a' b' =
        (if here ∧ st.m.frd = true then (c.cross.rd (i, j) a0 b0).getD (st.m.rd i' j' a' b') else st.m.rd i' j' a' b') := by
  have put : ∀ (A : Arr K) (flag : Bool) (a b : ℕ) (o : Option K), putCross A flag i j a b o i' j' a' b' =
      if ((i' = i ∧ j' = j ∧ a' = a ∧ b' = b) ∨ (i' = j ∧ j' = i ∧ a' = b ∧ b' = a)) ∧ flag = true then
        o.getD (A i' j' a' b') else A i' j' a' b' := by
    intro A flag a b o
    cases o <;> cases flag <;> simp [putCross, put2_eq]
  simp only [crossHit] at h
  split_ifs at h with h1 h2
  all_goals
    obtain rfl := Except.ok.inj h
    exact ⟨put2_eq _ _ _ _ _ _ _ _ _ _, put _ _ _ _ _, put _ _ _ _ _, put _ _ _ _ _⟩

/-- C108: an entry of the cross library for which neither order of the sites exists on the two groups
raises `ValueError`. -/
theorem c108_cross_error (c : Cfg K) (i a0 b0 j : ℕ) (v : K) (st : CrossSt K) :
    crossHit c i a0 b0 j v st = .error .valueError ↔
      ¬(c.nk i st.a ≠ 0 ∧ c.nk j st.b ≠ 0) ∧ ¬(c.nk i st.b ≠ 0 ∧ c.nk j st.a ≠ 0) := by
  unfold crossHit
  simp only
  split_ifs with h
  · simp only [true_iff]
    tauto
  · simp only [false_iff]
    tauto

/-- C108: a bonding parameter that has been given is not replaced by the combined one. -/
theorem c108_volume_kept (f : K → K → K) (A : Arr K) (flag : Bool) (i j a b : ℕ) (h : A i j a b ≠ 0) :
    combVol f A flag i j a b = A := by
  unfold combVol
  simp [h]

/-- C108: where none was given, the combined one is written for both orders. -/
theorem c108_volume_combined (f : K → K → K) (A : Arr K) (i j a b : ℕ) (h : A i j a b = 0) :
    combVol f A true i j a b i j a b = f (A i i a a) (A j j b b) ∧
      combVol f A true i j a b j i b a = f (A i i a a) (A j j b b) := by
  unfold combVol
  simp only [h, decide_true, Bool.and_true, if_true]
  rw [put2_eq, put2_eq]
  simp

end

/-- C108: the mean of distances and the mean of volumes give back a common value, do not depend on the
order, and lie between the two values. -/
theorem c108_means (cbrt : ℝ → ℝ) (hc : ∀ x, 0 ≤ x → cbrt x ^ 3 = x) (hm : Monotone cbrt)
    {x y : ℝ} (hx : 0 ≤ x) (hxy : x ≤ y) :
    mean x x = x ∧ mean x y = mean y x ∧ x ≤ mean x y ∧ mean x y ≤ y ∧
      meanCube cbrt x x = x ∧ meanCube cbrt x y = meanCube cbrt y x ∧
      x ≤ meanCube cbrt x y ∧ meanCube cbrt x y ≤ y := by
  have hyy := hx.trans hxy
  have hk := hm hxy
  have e1 : cbrt x ≤ (cbrt x + cbrt y) / 2 := by linarith
  have e2 : (cbrt x + cbrt y) / 2 ≤ cbrt y := by linarith
  have odd3 : ∀ {u v : ℝ}, u ≤ v → u ^ 3 ≤ v ^ 3 := fun h => (Odd.strictMono_pow (by decide)).monotone h
  refine ⟨?_, ?_, ?_, ?_, ?_, ?_, ?_, ?_⟩
  · unfold mean; ring
  · unfold mean; ring
  · unfold mean; linarith
  · unfold mean; linarith
  · unfold meanCube
    rw [show (cbrt x + cbrt x) / 2 = cbrt x by ring, hc x hx]
  · unfold meanCube; ring
  · calc x = cbrt x ^ 3 := (hc x hx).symm
      _ ≤ _ := odd3 e1
  · calc meanCube cbrt x y ≤ cbrt y ^ 3 := odd3 e2
      _ = y := hc y hyy

/-- The hypotheses of `c108_means` are met by the cube root. -/
example : ∃ cbrt : ℝ → ℝ, (∀ x, 0 ≤ x → cbrt x ^ 3 = x) ∧ Monotone cbrt := by
  refine ⟨fun x => max x 0 ^ (1 / 3 : ℝ), ?_, ?_⟩
  · intro x hx
    simp only [max_eq_left hx]
    rw [← Real.rpow_natCast, ← Real.rpow_mul hx]
    norm_num
  · intro x y hxy
    exact Real.rpow_le_rpow (le_max_right _ _) (max_le_max_right 0 hxy) (by norm_num)

/-- C108: the combined energy: its square is the product of the energies of the two sites with
themselves, and it is attractive (positive) when their declared values have opposite signs, repulsive
when they have the same sign. -/
theorem c108_energy (c : Cfg ℝ) (eps : Arr ℝ) (i j a b : ℕ) {ea eb : ℝ}
    (h1 : c.slf.eps i a a = some ea) (h2 : c.slf.eps j b b = some eb) (ha : ea ≠ 0) (hb : eb ≠ 0)
    (e1 : eps i i a a = -|ea|) (e2 : eps j j b b = -|eb|) (h0 : eps j i b a = 0) :
    let e := combEps Real.sqrt c eps i j a b
    e i j a b ^ 2 = |ea| * |eb| ∧ e j i b a = e i j a b ∧ (0 < e i j a b ↔ ea * eb < 0) ∧
      (e i j a b < 0 ↔ 0 < ea * eb) := by
  intro e
  have hp : 0 < |ea| * |eb| := mul_pos (abs_pos.2 ha) (abs_pos.2 hb)
  have hs : 0 < Real.sqrt (|ea| * |eb|) := Real.sqrt_pos.2 hp
  have hsq : Real.sqrt (|ea| * |eb|) ^ 2 = |ea| * |eb| := Real.sq_sqrt hp.le
  have hv : ∀ i' j' a' b', (i' = j ∧ j' = i ∧ a' = b ∧ b' = a) ∨ (i' = i ∧ j' = j ∧ a' = a ∧ b' = b) →
      e i' j' a' b' = Real.sqrt (|ea| * |eb|) * (-1 * (if ea * eb < 0 then -1 else if ea * eb = 0 then 0 else 1)) := by
    intro i' j' a' b' hh
    simp only [e, combEps, h1, h2, h0, if_true, e1, e2, neg_mul_neg]
    rw [put2_eq]
    rcases hh with ⟨rfl, rfl, rfl, rfl⟩ | ⟨rfl, rfl, rfl, rfl⟩ <;> simp
  have v1 := hv i j a b (Or.inr ⟨rfl, rfl, rfl, rfl⟩)
  have v2 := hv j i b a (Or.inl ⟨rfl, rfl, rfl, rfl⟩)
  have hne : ea * eb ≠ 0 := mul_ne_zero ha hb
  rw [v1, v2]
  rcases lt_or_gt_of_ne hne with h | h
  · simp only [h, if_true]
    refine ⟨by nlinarith, trivial, ?_, ?_⟩
    · simp only [iff_true]; linarith
    · constructor
      · intro h'; nlinarith
      · intro h'; linarith
  · simp only [not_lt.2 h.le, if_false, hne]
    refine ⟨by nlinarith, trivial, ?_, ?_⟩
    · constructor
      · intro h'; nlinarith
      · intro h'; exact absurd h' (by simp)
    · constructor
      · intro _; exact h
      · intro _; nlinarith

/-- C108: an energy that is not zero is left alone, and so it is when one of the two sites has no
energy with itself. -/
theorem c108_energy_kept (sqrt : ℝ → ℝ) (c : Cfg ℝ) (eps : Arr ℝ) (i j a b : ℕ)
    (h : eps j i b a ≠ 0 ∨ c.slf.eps i a a = none ∨ c.slf.eps j b b = none) :
    combEps sqrt c eps i j a b = eps := by
  unfold combEps
  rcases h with h | h | h
  · split
    · rw [if_neg h]
    · rfl
  · rw [h]
  · rw [h]
    split
    · contradiction
    · rfl

/-- Two groups with one site each: energies 4 and −9, volumes 8 and 64. -/
def oneEach (cross : ℕ × ℕ → ℕ → ℕ → Option ℚ) : Cfg ℚ where
  nb := 2
  ns := 2
  nk := fun i a => if i = a then 1 else 0
  slf := { eps := fun i a b => if a = i ∧ b = i then some (if i = 0 then 4 else -9) else none
           vol := fun i a b => if a = i ∧ b = i then some (if i = 0 then 8 else 64) else none
           rc := fun _ _ _ => none
           rd := fun _ _ _ => none }
  cross := { eps := cross
             vol := fun _ _ _ => none
             rc := fun _ _ _ => none
             rd := fun _ _ _ => none }

/-- The square root of 36 and the cube roots of 8 and 64; the other values are not asked for. -/
def sqrt36 (x : ℚ) : ℚ := if x = 36 then 6 else 0
def cbrt8 (x : ℚ) : ℚ := if x = 8 then 2 else if x = 64 then 4 else 0

/-- C108: a whole run without cross library. -/
theorem c108_run :
    (calcAssoc sqrt36 cbrt8 (oneEach fun _ _ _ => none)).toOption.map
      (fun m => ([m.eps 0 0 0 0, m.eps 1 1 1 1, m.eps 0 1 0 1, m.eps 1 0 1 0],
        [m.vol 0 0 0 0, m.vol 1 1 1 1, m.vol 0 1 0 1, m.vol 1 0 1 0])) =
      some ([-4, -9, 6, 6], [8, 64, 27, 27]) := by
  decide +kernel

/-- C108 is violated by an energy of zero, given in the cross library to have no bonds between the two
groups: it is replaced by the combined energy, while any other value is kept. -/
theorem c108_violated_zero :
    (calcAssoc sqrt36 cbrt8 (oneEach fun p a b =>
        if p = (0, 1) ∧ a = 0 ∧ b = 1 then some 0 else none)).toOption.map
      (fun m => (m.eps 0 1 0 1, m.eps 1 0 1 0)) = some (6, 6) ∧
    (calcAssoc sqrt36 cbrt8 (oneEach fun p a b =>
        if p = (0, 1) ∧ a = 0 ∧ b = 1 then some 1 else none)).toOption.map
      (fun m => (m.eps 0 1 0 1, m.eps 1 0 1 0)) = some (1, 1) := by
  decide +kernel

end Verif.Props
