import Verif.Props.Composition
import Verif.Props.PengRobinson

/-!
# C160: phases whose fugacity coefficients do not depend on their composition

An ideal gas is one, and so is one substance that is listed under several names.  The composition of such a phase is known: its mole
numbers are those of the other phase times the ratio of the coefficients (the modified law of Raoult).  Here the loops that search for
the composition of the vapour and of the liquid are followed from any starting guess to that composition.
-/

set_option linter.unusedSectionVars false

namespace Verif.Props
open Verif Verif.PhaseDensity Verif.Composition

variable {K : Type} [Field K] [LinearOrder K] [IsStrictOrderedRing K]

/-- One entry is the smallest of the positive ones. -/
def LoneSmallest (u : List K) : Prop :=
  ∃ a m b, u = a ++ m :: b ∧ 0 < m ∧ ∀ c ∈ a ++ b, 0 < c → m < c

private theorem minPos_none_of (l : List K) (h : ∀ c ∈ l, ¬ 0 < c) : minPos l = none := by
  induction l with
  | nil => rfl
  | cons a r ih =>
    simp only [minPos, ih fun c hc => h c (List.mem_cons_of_mem _ hc), if_neg (h a (by simp))]

private theorem minPos_some_of (l : List K) (m : K) (hm : m ∈ l) (h0 : 0 < m) (h : ∀ c ∈ l, 0 < c → m ≤ c) : minPos l = some m := by
  cases e : minPos l with
  | none =>
    exfalso
    clear h
    induction l with
    | nil => cases hm
    | cons a r ih =>
      simp only [minPos] at e
      cases er : minPos r with
      | none =>
        rw [er] at e
        rcases List.mem_cons.1 hm with rfl | hr
        · simp [h0] at e
        · exact ih hr er
      | some w =>
        simp only [er] at e
        split at e <;> cases e
  | some w =>
    obtain ⟨h1, h2, h3⟩ := minPos_spec l w e
    rw [le_antisymm (h3 m hm h0) (h w h1 h2)]

private theorem lone_change (u w : List K) (hu : LoneSmallest u) (hl : w.length = u.length) :
    ∃ m c, minPos u = some m ∧ smallestChange u w = .ok c ∧ (w = u → c = 0) := by
  obtain ⟨a, m, b, rfl, h0, h⟩ := hu
  have hm : minPos (a ++ m :: b) = some m := by
    refine minPos_some_of _ _ (by simp) h0 fun c hc hc0 => ?_
    rcases List.mem_append.1 hc with hc | hc
    · exact (h c (List.mem_append_left _ hc) hc0).le
    · rcases List.mem_cons.1 hc with rfl | hc
      · exact le_rfl
      · exact (h c (List.mem_append_right _ hc) hc0).le
  have hsplit : ∃ w1 k w2, w = w1 ++ k :: w2 ∧ w1.length = a.length ∧ w2.length = b.length := by
    refine ⟨w.take a.length, w[a.length]'(by rw [hl]; simp), w.drop (a.length + 1), ?_, ?_, ?_⟩
    · rw [List.getElem_cons_drop, List.take_append_drop]
    · simp [hl]
    · simp only [List.length_drop, hl, List.length_append, List.length_cons]; omega
  obtain ⟨w1, k, w2, rfl, e1, e2⟩ := hsplit
  have ne : ∀ c ∈ a ++ b, c ≠ m := fun c hc e => absurd (h c hc (e ▸ h0)) (by rw [e]; exact lt_irrefl _)
  have hz : ∀ (p q : List K), (∀ c ∈ p, c ≠ m) → (p.zip q).filter (fun r => decide (r.1 = m)) = [] := by
    intro p q hp
    rw [List.filter_eq_nil_iff]
    rintro ⟨r, s⟩ hrs
    simpa using hp r (List.of_mem_zip hrs).1
  have hf : ((a ++ m :: b).zip (w1 ++ k :: w2)).filter (fun r => decide (r.1 = m)) = [(m, k)] := by
    rw [List.zip_append e1.symm, List.zip_cons_cons, List.filter_append, hz a w1 fun c hc => ne c (List.mem_append_left _ hc),
      List.filter_cons, hz b w2 fun c hc => ne c (List.mem_append_right _ hc)]
    simp
  refine ⟨m, |k - m| / m, hm, by simp only [smallestChange, hm, hf], fun e => ?_⟩
  have : k = m := by
    have := List.append_inj_right e (by rw [e1])
    exact (List.cons.inj this).1
  rw [this]; simp

/-- The composition is one of those tried in place of a trivial solution. -/
def Replacement (E : Env K) (t : List K) : Prop := E.findNew = .ok (some t) ∨ ∃ k, t = E.rand k

/-- What the theorems assume about the phase that is sought: its coefficients `v` and its flag `f` are the same for every composition
of the right length, with `f` neither saying that it is another phase nor that there is none, and they give the mole numbers `N`. The
replacements that are tried in place of a trivial solution are compositions. -/
structure IdealPhase (ph : Phase) (E : Env K) (other : List K) (φo v : List (Option K)) (f : ℕ) (N : List K) : Prop where
  coefficients : ∀ z : List K, z.length = other.length → z.sum = 1 → E.fug z = .ok (v, f)
  number : ∀ a ∈ v, a ≠ none
  new : newMoleFractions ph other (if ph = .vapor then φo else v) (if ph = .vapor then v else φo) = .ok N
  length : N.length = other.length
  total : N.sum ≠ 0
  found : ∃ b : List K, E.findNew = .ok (some b) ∧ b.length = other.length ∧ b.sum = 1 ∧ LoneSmallest b
  random : ∀ n, (E.rand n).length = other.length ∧ (E.rand n).sum = 1 ∧ LoneSmallest (E.rand n)

private theorem normalise_mul (N : List K) (h : N.sum ≠ 0) : Composition.normalise N = .ok (N.map (· / N.sum)) := by
  simp [Composition.normalise, h]

private theorem normalise_one (z : List K) (h : z.sum = 1) : Composition.normalise z = .ok z := by
  simp [Composition.normalise, h]

section
variable {ph : Phase} {noPhase : ℕ → Bool} {E : Env K} {other : List K} {φo v : List (Option K)} {f : ℕ} {N : List K}

private theorem ideal_propose (hph : ph ≠ .other) (H : IdealPhase ph E other φo v f N) (hf : noPhase f = false) (n : ℕ) (s : State K) (z : List K)
    (hz : Composition.normalise s.y = .ok z) (hl : z.length = other.length) (hz1 : LoneSmallest z) :
    ∃ t c r, propose ph noPhase E other φo n s = .ok (some ⟨t, v, f, N⟩, c, r) ∧ LoneSmallest t ∧ t.length = other.length ∧
      (s.trivial = false → t = z) ∧ (t = z ∨ (r = false ∧ Replacement E t)) := by
  have hs := (comp_normalise _ _ hz).1
  have hany : v.any (·.isNone) = false := by
    rw [List.any_eq_false]
    intro a ha h
    exact H.number a ha (Option.isNone_iff_eq_none.mp h)
  have hnew : (if ph = .vapor then newMoleFractions .vapor other φo v else newMoleFractions .liquid other v φo) = .ok N := by
    have := H.new
    cases ph <;> simp_all
  have hfz := H.coefficients z hl hs
  by_cases ht : (isTrivial E.tolTrivial other z && s.trivial) = true
  · have hst : s.trivial = true := by simp at ht; exact ht.2
    obtain ⟨b, hb, bl, bs, b1⟩ := H.found
    obtain ⟨rl, rs, r1⟩ := H.random n
    by_cases hbin : isBinary z = true
    · refine ⟨b, false, false, ?_, b1, bl, by simp [hst], .inr ⟨rfl, .inl hb⟩⟩
      simp only [propose, hz, hfz, hany, hf, ht, hbin, hb, bind, Except.bind]
      simp [H.coefficients b bl bs, hnew]
    · rw [Bool.not_eq_true] at hbin
      refine ⟨E.rand n, s.check, false, ?_, r1, rl, by simp [hst], .inr ⟨rfl, .inr ⟨n, rfl⟩⟩⟩
      simp only [propose, hz, hfz, hany, hf, ht, hbin, bind, Except.bind]
      simp [H.coefficients _ rl rs, hnew]
  · rw [Bool.not_eq_true] at ht
    refine ⟨z, s.check, s.trivial, ?_, hz1, hl, fun _ => rfl, .inl rfl⟩
    simp only [propose, hz, hfz, hany, hf, ht, hnew, bind, Except.bind]
    simp

private theorem ideal_vapor_step (htol : 0 < E.tol) (H : IdealPhase .vapor E other φo v f N) (hf : f ≠ 1) (n : ℕ) (s : State K)
    (z : List K) (hz : Composition.normalise s.y = .ok z) (hl : z.length = other.length) (hz1 : LoneSmallest z) :
    ∃ t c r, LoneSmallest t ∧ (s.trivial = false → t = z) ∧ (t = z ∨ (r = false ∧ Replacement E t)) ∧
      (vaporLoop E other φo (n + 2) s = .ok (some ⟨⟨t, v, f, N⟩, N.map (· / N.sum), v, f, false⟩) ∨
        (vaporLoop E other φo (n + 2) s = vaporLoop E other φo (n + 1) ⟨N, N.sum :: s.totals, c, r⟩ ∧
          ¬ (s.totals.headD 0 = N.sum ∧ t = N.map (· / N.sum)))) := by
  obtain ⟨t, c, r, hp, ht, htl, h1, h2⟩ := ideal_propose (noPhase := (· == 1)) (by decide) H (by simpa using hf) (n + 1) s z hz hl hz1
  refine ⟨t, c, r, ht, h1, h2, ?_⟩
  have hy := normalise_mul N H.total
  have hfy := H.coefficients (N.map (· / N.sum)) (by simp [H.length]) (comp_normalise _ _ hy).1
  obtain ⟨m, d, -, hd, hd0⟩ := lone_change t (N.map (· / N.sum)) ht (by simp [H.length, htl])
  have hloop : vaporLoop E other φo (n + 2) s =
      (if (if |N.sum - s.totals.headD 0| < E.tol then decide (d < E.tol) else false) = true then
        .ok (some ⟨⟨t, v, f, N⟩, N.map (· / N.sum), v, f, false⟩)
      else vaporLoop E other φo (n + 1) ⟨N, N.sum :: s.totals, c, r⟩) := by
    conv_lhs => unfold vaporLoop
    simp only [hp, bind, Except.bind, hy, hfy]
    generalize s.totals.headD 0 = w
    by_cases hc : |N.sum - w| < E.tol
    · simp [hc, hd, Except.map]
    · simp [hc]
  rw [hloop]
  by_cases hc : (if |N.sum - s.totals.headD 0| < E.tol then decide (d < E.tol) else false) = true
  · exact .inl (if_pos hc)
  · refine .inr ⟨if_neg hc, fun ⟨e1, e2⟩ => hc ?_⟩
    rw [e1, sub_self, abs_zero, if_pos htol, hd0 e2.symm]
    simpa using htol

private theorem ideal_vapor_loop (htol : 0 < E.tol) (H : IdealPhase .vapor E other φo v f N) (hf : f ≠ 1)
    (hN : LoneSmallest (N.map (· / N.sum))) (n : ℕ) (s : State K)
    (z : List K) (hz : Composition.normalise s.y = .ok z) (hl : z.length = other.length) (hz1 : LoneSmallest z) :
    ∃ t, LoneSmallest t ∧ vaporLoop E other φo (n + 4) s = .ok (some ⟨⟨t, v, f, N⟩, N.map (· / N.sum), v, f, false⟩) := by
  have hy := normalise_mul N H.total
  have hyl : (N.map (· / N.sum)).length = other.length := by simp [H.length]
  have stepA : ∀ c tot, ∃ t, LoneSmallest t ∧ vaporLoop E other φo (n + 2) ⟨N, N.sum :: tot, c, false⟩ =
      .ok (some ⟨⟨t, v, f, N⟩, N.map (· / N.sum), v, f, false⟩) := by
    intro c tot
    obtain ⟨t, _, _, ht, h1, -, h⟩ := ideal_vapor_step htol H hf n ⟨N, N.sum :: tot, c, false⟩ _ hy hyl hN
    rcases h with h | ⟨-, h⟩
    · exact ⟨t, ht, h⟩
    · exact absurd ⟨rfl, h1 rfl⟩ h
  have stepB : ∀ c tot r, ∃ t, LoneSmallest t ∧ vaporLoop E other φo (n + 3) ⟨N, N.sum :: tot, c, r⟩ =
      .ok (some ⟨⟨t, v, f, N⟩, N.map (· / N.sum), v, f, false⟩) := by
    intro c tot r
    obtain ⟨t, c', r', ht, h1, h2, h⟩ := ideal_vapor_step htol H hf (n + 1) ⟨N, N.sum :: tot, c, r⟩ _ hy hyl hN
    rcases h with h | ⟨h, h'⟩
    · exact ⟨t, ht, h⟩
    · rcases h2 with h2 | ⟨rfl, -⟩
      · exact absurd ⟨rfl, h2⟩ h'
      · rw [h]; exact stepA _ _
  obtain ⟨t, c, r, ht, -, -, h⟩ := ideal_vapor_step htol H hf (n + 2) s z hz hl hz1
  rcases h with h | ⟨h, -⟩
  · exact ⟨t, ht, h⟩
  · rw [h]; exact stepB _ _ _

/-- **C160** (vapour): from every guess, and within four iterations, the vapour composition that is returned is exactly the one that the
coefficients give. -/
theorem c160_vapor (htol : 0 < E.tol) (hit : 4 ≤ E.maxiter) (H : IdealPhase .vapor E other φo v f N) (hf : f ≠ 1) (hf3 : f ≠ 3)
    (hφ : ∀ a ∈ φo, a ≠ none) (guess : List K) (hg : guess.sum ≠ 0) (hl : guess.length = other.length)
    (h1 : LoneSmallest (guess.map (· / guess.sum))) (hN : LoneSmallest (N.map (· / N.sum))) :
    vaporComposition E guess other φo = .ok (N.map (· / N.sum), v, some f) := by
  obtain ⟨n, hn⟩ := Nat.exists_eq_add_of_le' hit
  have hany : φo.any (·.isNone) = false := by
    rw [List.any_eq_false]
    intro a ha h
    exact hφ a ha (Option.isNone_iff_eq_none.mp h)
  have hy := normalise_mul guess hg
  have hs := (comp_normalise _ _ hy).1
  obtain ⟨t, ht, h⟩ := ideal_vapor_loop htol H hf hN n ⟨guess.map (· / guess.sum), [guess.sum], true, true⟩ _
    (normalise_one _ hs) (by simp [hl]) h1
  obtain ⟨m, _, hm, -, -⟩ := lone_change t t ht rfl
  simp only [vaporComposition, hany, hy, hn, h, bind, Except.bind, vaporFinish, hm, hf3]
  simp

private theorem ideal_liquid_step (htol : 0 < E.tol) (H : IdealPhase .liquid E other φo v f N) (hf : f ≠ 0) (hf4 : f ≠ 4) (n : ℕ)
    (s : State K) (z : List K) (hz : Composition.normalise s.y = .ok z) (hl : z.length = other.length) (hz1 : LoneSmallest z) :
    ∃ t c r, LoneSmallest t ∧ (s.trivial = false → t = z) ∧ (t = z ∨ (r = false ∧ Replacement E t)) ∧
      ((liquidLoop E other φo (n + 2) s = .ok (some (⟨t, v, f, N⟩, false)) ∧ SmallestKept E.tol t (N.map (· / N.sum)) ∧
          |N.sum - s.totals.headD 0| < E.tol) ∨
        (liquidLoop E other φo (n + 2) s = liquidLoop E other φo (n + 1) ⟨N, N.sum :: s.totals, c, r⟩ ∧
          ¬ (s.totals.headD 0 = N.sum ∧ t = N.map (· / N.sum)))) := by
  obtain ⟨t, c, r, hp, ht, htl, h1, h2⟩ := ideal_propose (noPhase := fun f => f == 0 || f == 4) (by decide) H
    (by simp [hf, hf4]) (n + 1) s z hz hl hz1
  refine ⟨t, c, r, ht, h1, h2, ?_⟩
  have hy := normalise_mul N H.total
  obtain ⟨m, d, -, hd, hd0⟩ := lone_change t (N.map (· / N.sum)) ht (by simp [H.length, htl])
  have hloop : liquidLoop E other φo (n + 2) s =
      (if (if |N.sum - s.totals.headD 0| < E.tol then decide (d < E.tol) else false) = true then
        .ok (some (⟨t, v, f, N⟩, false))
      else liquidLoop E other φo (n + 1) ⟨N, N.sum :: s.totals, c, r⟩) := by
    conv_lhs => unfold liquidLoop
    simp only [hp, bind, Except.bind, hy]
    generalize s.totals.headD 0 = w
    by_cases hc : |N.sum - w| < E.tol
    · simp [hc, hd, Except.map]
    · simp [hc]
  rw [hloop]
  by_cases hc : (if |N.sum - s.totals.headD 0| < E.tol then decide (d < E.tol) else false) = true
  · refine .inl ⟨if_pos hc, ?_⟩
    split at hc
    · rename_i h
      exact ⟨smallestChange_spec E.tol t _ d hd (by simpa using hc), h⟩
    · cases hc
  · refine .inr ⟨if_neg hc, fun ⟨e1, e2⟩ => hc ?_⟩
    rw [e1, sub_self, abs_zero, if_pos htol, hd0 e2.symm]
    simpa using htol

private theorem ideal_liquid_loop (htol : 0 < E.tol) (H : IdealPhase .liquid E other φo v f N) (hf : f ≠ 0) (hf4 : f ≠ 4)
    (hN : LoneSmallest (N.map (· / N.sum))) (n : ℕ) (s : State K)
    (z : List K) (hz : Composition.normalise s.y = .ok z) (hl : z.length = other.length) (hz1 : LoneSmallest z) :
    ∃ t, LoneSmallest t ∧ liquidLoop E other φo (n + 4) s = .ok (some (⟨t, v, f, N⟩, false)) ∧
      (t = N.map (· / N.sum) ∨ SmallestKept E.tol t (N.map (· / N.sum)) ∧
        (Replacement E t ∨ t = z ∧ |N.sum - s.totals.headD 0| < E.tol)) := by
  have hy := normalise_mul N H.total
  have hyl : (N.map (· / N.sum)).length = other.length := by simp [H.length]
  have stepA : ∀ c tot, liquidLoop E other φo (n + 2) ⟨N, N.sum :: tot, c, false⟩ =
      .ok (some (⟨N.map (· / N.sum), v, f, N⟩, false)) := by
    intro c tot
    obtain ⟨t, _, _, ht, h1, -, h⟩ := ideal_liquid_step htol H hf hf4 n ⟨N, N.sum :: tot, c, false⟩ _ hy hyl hN
    rcases h with ⟨h, -⟩ | ⟨-, h⟩
    · rw [h, h1 rfl]
    · exact absurd ⟨rfl, h1 rfl⟩ h
  have stepB : ∀ c tot r, ∃ t, LoneSmallest t ∧ liquidLoop E other φo (n + 3) ⟨N, N.sum :: tot, c, r⟩ =
      .ok (some (⟨t, v, f, N⟩, false)) ∧ (t = N.map (· / N.sum) ∨ SmallestKept E.tol t (N.map (· / N.sum)) ∧ Replacement E t) := by
    intro c tot r
    obtain ⟨t, c', r', ht, h1, h2, h⟩ := ideal_liquid_step htol H hf hf4 (n + 1) ⟨N, N.sum :: tot, c, r⟩ _ hy hyl hN
    rcases h with ⟨h, hk, -⟩ | ⟨h, h'⟩
    · rcases h2 with h2 | ⟨-, h2⟩
      · exact ⟨t, ht, h, .inl h2⟩
      · exact ⟨t, ht, h, .inr ⟨hk, h2⟩⟩
    · rcases h2 with h2 | ⟨rfl, -⟩
      · exact absurd ⟨rfl, h2⟩ h'
      · exact ⟨_, hN, h.trans (stepA _ _), .inl rfl⟩
  obtain ⟨t, c, r, ht, -, h2, h⟩ := ideal_liquid_step htol H hf hf4 (n + 2) s z hz hl hz1
  rcases h with ⟨h, hk, hs⟩ | ⟨h, -⟩
  · exact ⟨t, ht, h, .inr ⟨hk, h2.symm.imp (·.2) fun h => ⟨h, hs⟩⟩⟩
  · obtain ⟨t, ht, h', hk⟩ := stepB c (N.sum :: s.totals).tail r
    exact ⟨t, ht, h.trans h', hk.imp_right fun h => ⟨h.1, .inl h.2⟩⟩

/-- **C160** (liquid): from every guess, and within four iterations, the liquid composition that is returned is exactly the one that the
coefficients give, or it is a composition from which the loop never moved on: a replacement of a trivial solution, or the guess when
the mole numbers add up to one; of that only the smallest fraction is known to be right. -/
theorem c160_liquid_partial (htol : 0 < E.tol) (hit : 4 ≤ E.maxiter) (H : IdealPhase .liquid E other φo v f N) (hf : f ≠ 0) (hf4 : f ≠ 4)
    (hφ : ∀ a ∈ φo, a ≠ none) (guess : List K) (hg : guess.sum ≠ 0) (hl : guess.length = other.length)
    (h1 : LoneSmallest (guess.map (· / guess.sum))) (hN : LoneSmallest (N.map (· / N.sum))) :
    ∃ t, liquidComposition E guess other φo = .ok (t, v, some f) ∧ (t = N.map (· / N.sum) ∨ SmallestKept E.tol t (N.map (· / N.sum)) ∧
      (Replacement E t ∨ t = guess.map (· / guess.sum) ∧ |N.sum - 1| < E.tol)) := by
  obtain ⟨n, hn⟩ := Nat.exists_eq_add_of_le' hit
  have hany : φo.any (·.isNone) = false := by
    rw [List.any_eq_false]
    intro a ha h
    exact hφ a ha (Option.isNone_iff_eq_none.mp h)
  have hy := normalise_mul guess hg
  have hs := (comp_normalise _ _ hy).1
  obtain ⟨t, ht, h, hk⟩ := ideal_liquid_loop htol H hf hf4 hN n ⟨guess.map (· / guess.sum), [(guess.map (· / guess.sum)).sum], true, true⟩ _
    (normalise_one _ hs) (by simp [hl]) h1
  obtain ⟨m, _, hm, -, -⟩ := lone_change t t ht rfl
  refine ⟨t, ?_, ?_⟩
  · simp only [liquidComposition, hany, hy, hn, h, bind, Except.bind, liquidFinish, hm, normalise_mul N H.total]
    simp
  · simpa [hs] using hk

/-- **C160** (liquid of two components): both fractions that are returned differ from those that the coefficients give by less than half
the tolerance. -/
theorem c160_liquid_binary (htol : 0 < E.tol) (hit : 4 ≤ E.maxiter) (a b : K) (ho : other.length = 2)
    (H : IdealPhase .liquid E other φo v f [a, b]) (hf : f ≠ 0) (hf4 : f ≠ 4)
    (hφ : ∀ a ∈ φo, a ≠ none) (g1 g2 : K) (hg1 : 0 < g1) (hg2 : 0 < g2) (hne : g1 ≠ g2) (ha : 0 < a) (hb : 0 < b) (hab : a ≠ b)
    (hr : ∀ t, Replacement E t → ∀ c ∈ t, 0 < c) :
    ∃ x1 x2, liquidComposition E [g1, g2] other φo = .ok ([x1, x2], v, some f) ∧ |a / (a + b) - x1| < E.tol / 2 ∧
      |b / (a + b) - x2| < E.tol / 2 := by
  have lone : ∀ p q : K, 0 < p → 0 < q → p ≠ q → LoneSmallest ([p, q].map (· / [p, q].sum)) := by
    intro p q hp hq hpq
    have hs : 0 < [p, q].sum := by simp; positivity
    rcases lt_or_gt_of_ne hpq with h | h
    · exact ⟨[], p / [p, q].sum, [q / [p, q].sum], rfl, by positivity, by
        intro c hc _; simp only [List.nil_append, List.mem_singleton] at hc; rw [hc]; exact div_lt_div_of_pos_right h hs⟩
    · exact ⟨[p / [p, q].sum], q / [p, q].sum, [], rfl, by positivity, by
        intro c hc _; simp only [List.append_nil, List.mem_singleton] at hc; rw [hc]; exact div_lt_div_of_pos_right h hs⟩
  have hsum : [a, b].sum = a + b := by simp
  have hgs : [g1, g2].sum = g1 + g2 := by simp
  obtain ⟨t, h, hk⟩ := c160_liquid_partial htol hit H hf hf4 hφ [g1, g2] (by rw [hgs]; positivity) (by simp [ho]) (lone _ _ hg1 hg2 hne)
    (lone _ _ ha hb hab)
  have close : ∀ t : List K, t.length = 2 → t.sum = 1 → (∀ c ∈ t, 0 < c) → SmallestKept E.tol t ([a, b].map (· / [a, b].sum)) →
      ∃ x1 x2, t = [x1, x2] ∧ |a / (a + b) - x1| < E.tol / 2 ∧ |b / (a + b) - x2| < E.tol / 2 := by
    intro t tl ts tp hk
    match t, tl with
    | [x1, x2], _ =>
      have := c94_binary_close E.tol x1 x2 (a / (a + b)) (b / (a + b)) (tp _ (by simp)) (tp _ (by simp)) ts
        (by simp only [List.sum_cons, List.sum_nil, add_zero]; field_simp) (by simpa [hsum] using hk)
      exact ⟨x1, x2, rfl, this⟩
  rcases hk with rfl | ⟨hk, hr' | ⟨rfl, -⟩⟩
  · refine ⟨a / (a + b), b / (a + b), by simpa using h, ?_, ?_⟩ <;> simpa using htol
  · have : t.length = 2 ∧ t.sum = 1 := by
      rcases hr' with e | ⟨k, rfl⟩
      · obtain ⟨b', e', l, s, -⟩ := H.found
        rw [e] at e'
        injection e' with e'; injection e' with e'
        rw [e']; exact ⟨l.trans ho, s⟩
      · exact ⟨(H.random k).1.trans ho, (H.random k).2.1⟩
    obtain ⟨x1, x2, rfl, h1, h2⟩ := close t this.1 this.2 (hr t hr') hk
    exact ⟨x1, x2, h, h1, h2⟩
  · have hgp : 0 < [g1, g2].sum := by rw [hgs]; positivity
    obtain ⟨x1, x2, e, h1, h2⟩ := close _ (by simp) (comp_normalise _ _ (normalise_mul _ hgp.ne')).1
      (by intro c hc; simp only [List.map_cons, List.map_nil, List.mem_cons, List.not_mem_nil, or_false] at hc
          rcases hc with rfl | rfl <;> positivity) hk
    rw [e] at h
    exact ⟨x1, x2, h, h1, h2⟩

end

private theorem zip_replicate (f : K → K) (g : K × Option K × Option K → K) (p q : Option K) (h : ∀ a, g (a, p, q) = f a) (l : List K) :
    (l.zip ((List.replicate l.length p).zip (List.replicate l.length q))).map g = l.map f := by
  induction l with
  | nil => rfl
  | cons a r ih => simpa [List.replicate_succ, h] using ih

private theorem any_replicate (n : ℕ) (p : K) : (List.replicate n (some p)).any (·.isNone) = false := by
  induction n with
  | zero => rfl
  | succ n ih => simp

/-- Mole numbers proportional to a composition have that composition. -/
private theorem proportional (l : List K) (k : K) (hk : k ≠ 0) (h : l.sum = 1) :
    (l.map (· * k)).sum = k ∧ (l.map (· * k)).map (· / (l.map (· * k)).sum) = l := by
  have e : (l.map (· * k)).sum = k := by
    rw [List.sum_map_mul_right, List.map_id', h, one_mul]
  refine ⟨e, ?_⟩
  rw [e, List.map_map]
  calc l.map _ = l.map id := List.map_congr_left fun a _ => by simp [mul_div_cancel_right₀ a hk]
    _ = l := List.map_id l

/-- **C160** (one substance under several names): coefficients that are the same for all names give mole numbers in proportion to the
other phase, which are its composition again, and the objective of the pressure is the one of the substance by itself. -/
theorem c160_same (ph : Phase) (hph : ph ≠ .other) (other : List K) (h : other.sum = 1) (p q : K) (hp : p ≠ 0) (hq : q ≠ 0) :
    ∃ k, k ≠ 0 ∧ newMoleFractions ph other (List.replicate other.length (some p)) (List.replicate other.length (some q)) =
        .ok (other.map (· * k)) ∧ (other.map (· * k)).map (· / (other.map (· * k)).sum) = other ∧
      equilibriumObjective ph other (List.replicate other.length (some p)) (List.replicate other.length (some q)) = .ok (k - 1) ∧
      equilibriumObjective ph [1] [some p] [some q] = .ok (k - 1) ∧ k = (if ph = .vapor then p / q else q / p) := by
  refine ⟨if ph = .vapor then p / q else q / p, by split <;> exact div_ne_zero ‹_› ‹_›, ?_, ?_, ?_, ?_, rfl⟩
  · unfold newMoleFractions
    rw [if_neg hph, if_neg (by simpa using h), any_replicate, any_replicate]
    simp only [Bool.false_eq_true, if_false]
    rw [zip_replicate (fun a => a * if ph = .vapor then p / q else q / p)]
    intro a
    unfold newFraction
    by_cases ha : a = 0
    · simp [ha]
    · cases ph <;> simp_all [mul_div_assoc]
  · exact (proportional other _ (by split <;> exact div_ne_zero ‹_› ‹_›) h).2
  · unfold equilibriumObjective
    rw [if_neg hph, if_neg (by simpa using h), any_replicate, any_replicate]
    simp only [Bool.false_eq_true, if_false]
    rw [zip_replicate (fun a => a * if ph = .vapor then p / q else q / p), (proportional other _ (by split <;> exact div_ne_zero ‹_› ‹_›) h).1]
    intro a
    cases ph <;> simp_all [mul_div_assoc]
  · cases ph <;> simp_all [equilibriumObjective]

/-- **C160** (one substance under several names): the vapour of the mixture has the composition of the liquid, from every guess. -/
theorem c160_one_substance (E : Env K) (htol : 0 < E.tol) (hit : 4 ≤ E.maxiter) (other : List K) (ho : other.sum = 1)
    (h1 : LoneSmallest other) (p q : K) (hp : p ≠ 0) (hq : q ≠ 0) (f : ℕ) (hf : f ≠ 1) (hf3 : f ≠ 3)
    (hfug : ∀ z : List K, z.length = other.length → z.sum = 1 → E.fug z = .ok (List.replicate other.length (some q), f))
    (hfound : ∃ b : List K, E.findNew = .ok (some b) ∧ b.length = other.length ∧ b.sum = 1 ∧ LoneSmallest b)
    (hrand : ∀ n, (E.rand n).length = other.length ∧ (E.rand n).sum = 1 ∧ LoneSmallest (E.rand n))
    (guess : List K) (hg : guess.sum ≠ 0) (hl : guess.length = other.length) (hg1 : LoneSmallest (guess.map (· / guess.sum))) :
    vaporComposition E guess other (List.replicate other.length (some p)) =
      .ok (other, List.replicate other.length (some q), some f) := by
  obtain ⟨k, hk, hnew, hself, -⟩ := c160_same .vapor (by decide) other ho p q hp hq
  have H : IdealPhase .vapor E other (List.replicate other.length (some p)) (List.replicate other.length (some q)) f (other.map (· * k)) :=
    { coefficients := hfug
      number := fun a ha => by rw [List.eq_of_mem_replicate ha]; simp
      new := by simpa using hnew
      length := by simp
      total := by rw [(proportional other k hk ho).1]; exact hk
      found := hfound
      random := hrand }
  have := c160_vapor htol hit H hf hf3 (fun a ha => by rw [List.eq_of_mem_replicate ha]; simp) guess hg hl hg1 (by rw [hself]; exact h1)
  rw [hself] at this
  exact this

/-- **C160** (the cubic equation of state is such a case): one substance listed under several names has the pressure and, for every name,
the fugacity coefficient of the substance by itself, whatever the mole fractions of the names. -/
theorem c160_names {m : ℕ} (R T P ρ : ℝ) (q : PengRobinson.Par 1) (z : Fin m → ℝ) (hz : ∑ i, z i = 1) :
    PengRobinson.pressure R T (reindex q fun _ : Fin m => 0) z ρ = PengRobinson.pressure R T q (fun _ => 1) ρ ∧
      (List.ofFn fun i => some (PengRobinson.phi R T (reindex q fun _ : Fin m => 0) z P ρ i)) =
        List.replicate m (some (PengRobinson.phi R T q (fun _ => 1) P ρ 0)) := by
  have hy : ∀ i : Fin 1, (fun _ : Fin 1 => (1 : ℝ)) i = ∑ j with (fun _ : Fin m => (0 : Fin 1)) j = i, z j := by
    intro i
    have : i = 0 := Subsingleton.elim _ _
    subst this
    simp [hz]
  obtain ⟨ha, hb⟩ := c16_lumping q (fun _ : Fin m => 0) (fun _ => 1) z hy
  refine ⟨by unfold PengRobinson.pressure; rw [ha, hb], ?_⟩
  have : ∀ i, PengRobinson.phi R T (reindex q fun _ : Fin m => 0) z P ρ i = PengRobinson.phi R T q (fun _ => 1) P ρ 0 := fun i => by
    unfold PengRobinson.phi
    rw [c16_fugacity R T P ρ q (fun _ : Fin m => 0) (fun _ => 1) z hy i]
  simp only [this]
  exact List.ofFn_const m _

/-- The hypotheses are met by an ideal vapour of two components. -/
example : IdealPhase .vapor { testEnv [1, 2] 0 9 with rand := fun _ => [1/4, 3/4] } [1/2, 1/2] [some 2, some 1] [some 1, some 2] 0
    [(1 : ℚ), 1/4] ∧ LoneSmallest ([(1 : ℚ), 1/4].map (· / [(1 : ℚ), 1/4].sum)) ∧
    vaporComposition { testEnv [1, 2] 0 9 with rand := fun _ => [1/4, 3/4] } [1/3, 2/3] [1/2, 1/2] [some 2, some 1] =
      .ok ([4/5, 1/5], [some 1, some 2], some 0) := by
  have hl : LoneSmallest [(1/4 : ℚ), 3/4] := ⟨[], 1/4, [3/4], rfl, by norm_num, by
    intro c hc _; simp only [List.nil_append, List.mem_singleton] at hc; rw [hc]; norm_num⟩
  refine ⟨⟨fun _ _ _ => rfl, by simp, by decide +kernel, rfl, by norm_num, ⟨[1/4, 3/4], rfl, rfl, by norm_num, hl⟩,
    fun _ => ⟨rfl, by norm_num, hl⟩⟩, ?_, by decide +kernel⟩
  refine ⟨[4/5], 1/5, [], by norm_num, by norm_num, ?_⟩
  intro c hc _; simp only [List.append_nil, List.mem_singleton] at hc; rw [hc]; norm_num

/-- **C160, violated** (liquid): a guess whose mole numbers add up to one and whose smallest fraction is right is returned as the
composition of the liquid, although the other two fractions are exchanged. -/
theorem c160_violated_liquid :
    liquidComposition (testEnv [2, 1/2, 5/3] 1 9) [1/10, 3/10, 6/10] [1/5, 3/10, 1/2] [some 1, some 1, some 1] =
      .ok ([1/10, 3/10, 6/10], [some 2, some (1/2), some (5/3)], some 1) ∧
    newMoleFractions .liquid [1/5, 3/10, 1/2] [some 2, some (1/2), some (5/3)] [some 1, some 1, some 1] =
      .ok [(1/10 : ℚ), 6/10, 3/10] := by decide +kernel

/-- **C160, violated** (equal amounts): one substance under two names with equal mole fractions cannot be calculated, from a guess with
which other mole fractions can. -/
theorem c160_violated_equal :
    vaporComposition (testEnv [1, 1] 0 9) [1/3, 2/3] [1/2, 1/2] [some 1, some 1] = .error .valueError ∧
    vaporComposition (testEnv [1, 1] 0 9) [1/3, 2/3] [2/5, 3/5] [some 1, some 1] = .ok ([2/5, 3/5], [some 1, some 1], some 0) := by
  decide +kernel

end Verif.Props
