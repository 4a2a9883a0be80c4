import Verif.Model.FitHistory
import Verif.Props.Interface
import Verif.Props.SaftState

/-!
# C139: the objective at a set of parameters does not depend on the sets tried before
-/

namespace Verif.Props
open Verif Verif.SaftState Verif.FitHistory

/-! ## Square-well fluid -/

section
variable {Lib Rule Temp Comp Sk Kl Avg Al Dia Chain Seg R P : Type} [DecidableEq Temp] [DecidableEq Comp]

section
variable (o : SwOps Lib Rule Comp Sk Kl Avg Al Seg) (w : P → Lib → Lib)
  (proc : List (Sk × Kl × Avg × Al × Option Seg) → Next (Temp × Comp) R) (n : Nat)

omit [DecidableEq Temp] in
theorem sw_consult_keeps (m : Nat) (s : SwSt Lib Rule Comp Sk Kl Avg Al Seg) (vs) :
    (consult (askSw o) proc m s vs).2.1.lib = s.lib ∧ (consult (askSw o) proc m s vs).2.1.rule = s.rule := by
  induction m generalizing s vs with
  | zero => exact ⟨rfl, rfl⟩
  | succ m ih =>
    unfold consult
    cases proc vs with
    | stop r => exact ⟨rfl, rfl⟩
    | ask q =>
      obtain ⟨h1, h2⟩ := ih ((askSw o q s).1) (vs ++ [(askSw o q s).2])
      have : (askSw o q s).1.lib = s.lib ∧ (askSw o q s).1.rule = s.rule := by
        unfold askSw SwSt.eval
        split <;> exact ⟨rfl, rfl⟩
      exact ⟨h1.trans this.1, h2.trans this.2⟩

omit [DecidableEq Temp] in
theorem sw_tried_keeps (ps : List P) (s : SwSt Lib Rule Comp Sk Kl Avg Al Seg) :
    (tried (writeSw w) (SwSt.refresh o) (askSw o) proc n ps s).lib = ps.foldl (fun l p => w p l) s.lib ∧
    (tried (writeSw w) (SwSt.refresh o) (askSw o) proc n ps s).rule = s.rule := by
  induction ps generalizing s with
  | nil => exact ⟨rfl, rfl⟩
  | cons p ps ih =>
    obtain ⟨h1, h2⟩ := ih (evaluate (writeSw w) (SwSt.refresh o) (askSw o) proc n p s).2.1
    obtain ⟨k1, k2⟩ := sw_consult_keeps o proc n (SwSt.refresh o (writeSw w p s)) []
    unfold tried at h1 h2 ⊢
    rw [List.foldl_cons, List.foldl_cons, h1, h2]
    exact ⟨by rw [show (evaluate (writeSw w) (SwSt.refresh o) (askSw o) proc n p s).2.1.lib = w p s.lib from k1], k2⟩

omit [DecidableEq Temp] in
theorem sw_first (s : SwSt Lib Rule Comp Sk Kl Avg Al Seg) (q : Temp × Comp) :
    askSw o q (s.refresh o) = askSw o q (SwSt.init o s.lib s.rule) := by
  unfold askSw SwSt.eval SwSt.refresh SwSt.init
  by_cases hx : s.xi = some q.2 <;> simp [hx, SwSt.view]

/-- Specification: writing parameters overwrites those written before. -/
def Overwrites (w : P → Lib → Lib) : Prop := ∀ p p' l, w p (w p' l) = w p l

theorem overwrites_foldl (hw : Overwrites w) (ps : List P) (p : P) (l : Lib) :
    w p (ps.foldl (fun l p => w p l) l) = w p l := by
  induction ps generalizing l with
  | nil => rfl
  | cons q ps ih => rw [List.foldl_cons, ih, hw]

omit [DecidableEq Temp] in
/-- **C139 (square-well fluid).** Whatever parameters have been tried before, a calculation at the parameters `p` returns
what it returns with an equation of state newly built with `p`, and gets the same answers. -/
theorem c139_square_well (hw : Overwrites w) (lib : Lib) (r : Rule) (ps : List P) (p : P) :
    let e := evaluate (writeSw w) (SwSt.refresh o) (askSw o) proc n p
      (tried (writeSw w) (SwSt.refresh o) (askSw o) proc n ps (SwSt.init o lib r))
    let f := consult (askSw o) proc n (SwSt.init o (w p lib) r) []
    e.1 = f.1 ∧ e.2.2 = f.2.2 := by
  intro e f
  obtain ⟨h1, h2⟩ := sw_tried_keeps o w proc n ps (SwSt.init o lib r)
  have hs := sw_first (Temp := Temp) o (writeSw w p (tried (writeSw w) (SwSt.refresh o) (askSw o) proc n ps (SwSt.init o lib r)))
  have hl : (writeSw w p (tried (writeSw w) (SwSt.refresh o) (askSw o) proc n ps (SwSt.init o lib r))).lib = w p lib := by
    show w p (tried (writeSw w) (SwSt.refresh o) (askSw o) proc n ps (SwSt.init o lib r)).lib = w p lib
    rw [h1]
    exact overwrites_foldl w hw ps p lib
  have hr : (writeSw w p (tried (writeSw w) (SwSt.refresh o) (askSw o) proc n ps (SwSt.init o lib r))).rule = r := h2
  rw [hl, hr] at hs
  cases n with
  | zero => exact ⟨rfl, rfl⟩
  | succ m =>
    show (evaluate _ _ _ _ _ _ _).1 = (consult _ _ _ _ _).1 ∧ (evaluate _ _ _ _ _ _ _).2.2 = (consult _ _ _ _ _).2.2
    unfold evaluate consult
    cases proc [] with
    | stop _ => exact ⟨rfl, rfl⟩
    | ask q =>
      simp only [hs q]
      exact ⟨trivial, trivial⟩

end

/-! ## Mie fluid -/

section
variable (o : MieOps Lib Rule Temp Comp Sk Kl Avg Al Dia Chain Seg) (w : P → Lib → Lib)
  (proc : List (Sk × Kl × Avg × Al × Option Dia × Option Chain × Option Seg) → Next (Temp × Comp) R) (n : Nat)

theorem mie_eval_keeps (t : Temp) (x : Comp) (s : MieSt Lib Rule Temp Comp Sk Kl Avg Al Dia Chain Seg) :
    (s.eval o t x).lib = s.lib := by
  unfold MieSt.eval MieSt.checkX MieSt.checkT MieSt.rules MieSt.diameters
  split_ifs <;> rfl

omit [DecidableEq Comp] in
theorem mie_refresh_keeps (s : MieSt Lib Rule Temp Comp Sk Kl Avg Al Dia Chain Seg) : (s.refresh o).lib = s.lib :=
  (fresh_refresh o s).2.1

theorem mie_consult_keeps (m : Nat) (r : Rule) (s : MieSt Lib Rule Temp Comp Sk Kl Avg Al Dia Chain Seg) (vs)
    (h : RuleInv o r s) : (consult (askMie o) proc m s vs).2.1.lib = s.lib ∧
      RuleInv o r (consult (askMie o) proc m s vs).2.1 := by
  induction m generalizing s vs with
  | zero => exact ⟨rfl, h⟩
  | succ m ih =>
    unfold consult
    cases proc vs with
    | stop r => exact ⟨rfl, h⟩
    | ask q =>
      obtain ⟨h1, h2⟩ := ih ((askMie o q s).1) (vs ++ [(askMie o q s).2]) (ruleInv_step o h (.eval q.1 q.2))
      exact ⟨h1.trans (mie_eval_keeps o q.1 q.2 s), h2⟩

theorem mie_tried_keeps (ps : List P) (r : Rule) (s : MieSt Lib Rule Temp Comp Sk Kl Avg Al Dia Chain Seg)
    (h : RuleInv o r s) :
    (tried (writeMie w) (MieSt.refresh o) (askMie o) proc n ps s).lib = ps.foldl (fun l p => w p l) s.lib ∧
    RuleInv o r (tried (writeMie w) (MieSt.refresh o) (askMie o) proc n ps s) := by
  induction ps generalizing s with
  | nil => exact ⟨rfl, h⟩
  | cons p ps ih =>
    have h' : RuleInv o r ((writeMie w p s).refresh o) := ruleInv_step o (s := writeMie w p s) h .refresh
    obtain ⟨k1, k2⟩ := mie_consult_keeps o proc n r ((writeMie w p s).refresh o) [] h'
    obtain ⟨h1, h2⟩ := ih (evaluate (writeMie w) (MieSt.refresh o) (askMie o) proc n p s).2.1 k2
    unfold tried at h1 h2 ⊢
    rw [List.foldl_cons, List.foldl_cons, h1]
    refine ⟨?_, h2⟩
    rw [show (evaluate (writeMie w) (MieSt.refresh o) (askMie o) proc n p s).2.1.lib = w p s.lib from
      k1.trans (mie_refresh_keeps o _)]

/-- After a refresh and a question at a new temperature nothing is left of the history. -/
theorem mie_first {r : Rule} (s : MieSt Lib Rule Temp Comp Sk Kl Avg Al Dia Chain Seg) (h : RuleInv o r s)
    (q : Temp × Comp) (ht : s.T.getD o.t298 ≠ q.1) :
    askMie o q (s.refresh o) = askMie o q (MieSt.init o s.lib r) := by
  obtain ⟨t, x⟩ := q
  have hr : RuleInv o r (s.refresh o) := ruleInv_step o h .refresh
  obtain ⟨hf, e1, e2, e3, e4⟩ := fresh_refresh o s
  have key : (s.refresh o).eval o t x = (MieSt.init o s.lib r).eval o t x := by
    generalize hg : s.refresh o = s' at *
    obtain ⟨lib, rule, ruleT, fixed, T, xi, sk, kl, avg, al, dia, chain, seg⟩ := s'
    obtain ⟨h1, h2⟩ := hr
    obtain ⟨f1, f2, f3, f4, f5⟩ := hf
    simp only at h1 h2 f1 f2 f3 f4 f5 e1 e3
    subst h1 f4 f3 f2 f1 e1 e3
    have ht' : ¬ (some (s.T.getD o.t298) = some t) := fun e => ht (Option.some.inj e)
    unfold MieSt.eval MieSt.checkX MieSt.checkT MieSt.rules MieSt.diameters MieSt.init
    by_cases hd : o.tdep rule
    · by_cases hx : xi = some x
      · subst hx
        simp [ht', hd, f5 x rfl]
      · simp [ht', hd, hx]
    · obtain ⟨g1, g2⟩ := h2 (by simpa using hd)
      subst g1 g2
      by_cases hx : xi = some x
      · subst hx
        simp [ht', hd, f5 x rfl]
      · simp [ht', hd, hx]
  unfold askMie
  simp only [key]

/-- **C139 (Mie fluid, what holds).** If the first question of the calculation is at another temperature than the last one
of the evaluation before (298 K before the first), a calculation at the parameters `p` returns what it returns with an equation
of state newly built with `p`, whatever has been tried before.  Missing: `c139_isothermal`. -/
theorem c139_mie_partial (hw : Overwrites w) (lib : Lib) (r : Rule) (ps : List P) (p : P)
    (hT : ∀ q, proc [] = .ask q →
      (tried (writeMie w) (MieSt.refresh o) (askMie o) proc n ps (MieSt.init o lib r)).T.getD o.t298 ≠ q.1) :
    let e := evaluate (writeMie w) (MieSt.refresh o) (askMie o) proc n p
      (tried (writeMie w) (MieSt.refresh o) (askMie o) proc n ps (MieSt.init o lib r))
    let f := consult (askMie o) proc n (MieSt.init o (w p lib) r) []
    e.1 = f.1 ∧ e.2.2 = f.2.2 := by
  intro e f
  have h0 : RuleInv o r (MieSt.init o lib r) := ⟨rfl, fun _ => ⟨rfl, rfl⟩⟩
  obtain ⟨h1, h2⟩ := mie_tried_keeps o w proc n ps r (MieSt.init o lib r) h0
  change e.1 = f.1 ∧ e.2.2 = f.2.2
  have hl : (writeMie w p (tried (writeMie w) (MieSt.refresh o) (askMie o) proc n ps (MieSt.init o lib r))).lib = w p lib := by
    show w p (tried (writeMie w) (MieSt.refresh o) (askMie o) proc n ps (MieSt.init o lib r)).lib = w p lib
    rw [h1]
    exact overwrites_foldl w hw ps p lib
  have hs := fun q => mie_first o (r := r)
    (writeMie w p (tried (writeMie w) (MieSt.refresh o) (askMie o) proc n ps (MieSt.init o lib r))) h2 q
  rw [hl] at hs
  cases n with
  | zero => exact ⟨rfl, rfl⟩
  | succ m =>
    show (evaluate _ _ _ _ _ _ _).1 = (consult _ _ _ _ _).1 ∧ (evaluate _ _ _ _ _ _ _).2.2 = (consult _ _ _ _ _).2.2
    unfold evaluate consult
    cases hp : proc [] with
    | stop _ => exact ⟨rfl, rfl⟩
    | ask q =>
      simp only [hs q (hT q hp)]
      exact ⟨trivial, trivial⟩

/-- The diameters are those of an earlier set of parameters. -/
def StuckAt (t : Temp) (d : Dia) (s : MieSt Lib Rule Temp Comp Sk Kl Avg Al Dia Chain Seg) : Prop :=
  s.T = some t ∧ s.dia = some d

omit [DecidableEq Comp] in
theorem stuck_refresh (t : Temp) (d : Dia) (s : MieSt Lib Rule Temp Comp Sk Kl Avg Al Dia Chain Seg) (h : StuckAt t d s) :
    StuckAt t d (s.refresh o) := by
  obtain ⟨h1, h2⟩ := h
  unfold MieSt.refresh MieSt.checkT MieSt.matrices MieSt.finish StuckAt
  simp [h1, h2]

theorem stuck_eval (t : Temp) (d : Dia) (x : Comp) (s : MieSt Lib Rule Temp Comp Sk Kl Avg Al Dia Chain Seg)
    (h : StuckAt t d s) : StuckAt t d (s.eval o t x) := by
  obtain ⟨h1, h2⟩ := h
  unfold MieSt.eval MieSt.checkX MieSt.checkT StuckAt
  simp only [h1, if_true]
  split_ifs <;> simp [h1, h2]

/-- An isothermal calculation never leaves the temperature. -/
theorem stuck_consult (t : Temp) (d : Dia) (hp : ∀ vs q, proc vs = .ask q → q.1 = t) (m : Nat)
    (s : MieSt Lib Rule Temp Comp Sk Kl Avg Al Dia Chain Seg) (vs) (h : StuckAt t d s) :
    StuckAt t d (consult (askMie o) proc m s vs).2.1 ∧
      ∀ v ∈ (consult (askMie o) proc m s vs).2.2, v ∈ vs ∨ v.2.2.2.2.1 = some d := by
  induction m generalizing s vs with
  | zero => exact ⟨h, fun v hv => .inl hv⟩
  | succ m ih =>
    unfold consult
    cases hq : proc vs with
    | stop r => exact ⟨h, fun v hv => .inl hv⟩
    | ask q =>
      have hqt := hp vs q hq
      have hst : StuckAt t d (askMie o q s).1 := by
        have := stuck_eval o t d q.2 s h
        rw [← hqt] at this ⊢
        exact this
      obtain ⟨k1, k2⟩ := ih (askMie o q s).1 (vs ++ [(askMie o q s).2]) hst
      refine ⟨k1, fun v hv => ?_⟩
      rcases k2 v hv with hv | hv
      · rcases List.mem_append.mp hv with hv | hv
        · exact .inl hv
        · right
          rw [List.mem_singleton.mp hv]
          exact hst.2
      · exact .inr hv

/-- **C139 is violated for data at one temperature.** When all states of a data set have the same temperature, every
calculation after the first set of parameters `p₀` uses the hard-sphere diameters of `p₀`, whatever parameters are tried. -/
theorem c139_isothermal (t : Temp) (ht : o.t298 ≠ t) (hp : ∀ vs q, proc vs = .ask q → q.1 = t)
    (q₀ : Temp × Comp) (hq₀ : proc [] = .ask q₀) (lib : Lib) (r : Rule) (hd : o.tdep r = false)
    (p₀ : P) (ps : List P) (p : P) :
    ∀ v ∈ (evaluate (writeMie w) (MieSt.refresh o) (askMie o) proc (n + 1) p
      (tried (writeMie w) (MieSt.refresh o) (askMie o) proc (n + 1) (p₀ :: ps) (MieSt.init o lib r))).2.2,
      v.2.2.2.2.1 = some (o.dia t (o.kl (w p₀ lib) r none false) (w p₀ lib)) := by
  have hq : q₀.1 = t := hp [] q₀ hq₀
  -- the first evaluation
  have hfirst : StuckAt t (o.dia t (o.kl (w p₀ lib) r none false) (w p₀ lib))
      (evaluate (writeMie w) (MieSt.refresh o) (askMie o) proc (n + 1) p₀ (MieSt.init o lib r)).2.1 := by
    unfold evaluate consult
    simp only [hq₀]
    refine (stuck_consult o proc t _ hp n _ _ ?_).1
    have h0 : RuleInv o r (writeMie w p₀ (MieSt.init o lib r)) := ⟨rfl, fun _ => ⟨rfl, rfl⟩⟩
    rw [mie_first o (r := r) (writeMie w p₀ (MieSt.init o lib r)) h0 q₀ (by rw [hq]; exact ht)]
    unfold askMie StuckAt MieSt.eval MieSt.checkX MieSt.checkT MieSt.rules MieSt.diameters MieSt.init
    simp [hd, hq, writeMie]
  -- the later ones
  have hlater : ∀ (ps : List P) (s : MieSt Lib Rule Temp Comp Sk Kl Avg Al Dia Chain Seg) (d : Dia), StuckAt t d s →
      StuckAt t d (tried (writeMie w) (MieSt.refresh o) (askMie o) proc (n + 1) ps s) := by
    intro ps
    induction ps with
    | nil => intro s d h; exact h
    | cons a ps ih =>
      intro s d h
      exact ih _ d (stuck_consult o proc t d hp (n + 1) _ [] (stuck_refresh o t d _ (show StuckAt t d (writeMie w a s) from h))).1
  have hs := hlater ps _ _ hfirst
  intro v hv
  have := (stuck_consult o proc t _ hp (n + 1) _ [] (stuck_refresh o t _ _
    (show StuckAt t _ (writeMie w p (tried (writeMie w) (MieSt.refresh o) (askMie o) proc (n + 1) (p₀ :: ps)
      (MieSt.init o lib r))) from hs))).2 v hv
  rcases this with h | h
  · cases h
  · exact h

/-- **C139 (Mie fluid, data at several temperatures).** For a data set whose first state has a temperature `t₁`, other than
298 K, at which no calculation ends: the calculation at the parameters `p` returns what it returns with an equation of state newly
built with `p`, whatever has been tried before. -/
theorem c139_several_temperatures (hw : Overwrites w) (lib : Lib) (r : Rule) (t₁ : Temp) (h298 : o.t298 ≠ t₁)
    (hfirst : ∀ q, proc [] = .ask q → q.1 = t₁)
    (hlast : ∀ s, (consult (askMie o) proc n s []).2.1.T ≠ some t₁) (ps : List P) (p : P) :
    let e := evaluate (writeMie w) (MieSt.refresh o) (askMie o) proc n p
      (tried (writeMie w) (MieSt.refresh o) (askMie o) proc n ps (MieSt.init o lib r))
    let f := consult (askMie o) proc n (MieSt.init o (w p lib) r) []
    e.1 = f.1 ∧ e.2.2 = f.2.2 := by
  apply c139_mie_partial o w proc n hw lib r ps p
  intro q hq
  rw [hfirst q hq]
  have gen : ∀ (ps : List P) (s : MieSt Lib Rule Temp Comp Sk Kl Avg Al Dia Chain Seg), s.T.getD o.t298 ≠ t₁ →
      (tried (writeMie w) (MieSt.refresh o) (askMie o) proc n ps s).T.getD o.t298 ≠ t₁ := by
    intro ps
    induction ps with
    | nil => intro s h; exact h
    | cons a ps ih =>
      intro s _
      refine ih _ ?_
      have := hlast ((writeMie w a s).refresh o)
      show ((consult (askMie o) proc n ((writeMie w a s).refresh o) []).2.1.T).getD o.t298 ≠ t₁
      cases hT : (consult (askMie o) proc n ((writeMie w a s).refresh o) []).2.1.T with
      | none => exact h298
      | some t => rw [hT] at this; exact fun e => this (by rw [← e]; rfl)
  exact gen ps _ h298

end

/-! ## Association -/

section
variable {Dist Mats Vol : Type} (o : AssocOps Lib Temp Dist Mats Vol) (w : P → Lib → Lib)
  (proc : List (Option (Mats × Option Vol)) → Next (Temp × Dist) R) (n : Nat)

/-- The parameters are written into the library that association reads. -/
def writeAssoc (p : P) (s : AssocSt Lib Temp Mats Vol) : AssocSt Lib Temp Mats Vol := { s with lib := w p s.lib }

/-- The bonding volume is that of an earlier set of parameters. -/
def BondStuck (t : Temp) (k : Vol) (s : AssocSt Lib Temp Mats Vol) : Prop :=
  s.flag = true ∧ s.T = some t ∧ s.vol = some k

theorem bond_consult (t : Temp) (k : Vol) (m : Mats) (hm : o.useRc m = true) (hp : ∀ vs q, proc vs = .ask q → q.1 = t)
    (j : Nat) (s : AssocSt Lib Temp Mats Vol) (vs) (h : BondStuck t k s) (hs : s.mats = m) :
    (consult (fun q s => s.eval o q.1 q.2) proc j s vs).2.1 = s ∧
      ∀ v ∈ (consult (fun q s => s.eval o q.1 q.2) proc j s vs).2.2, v ∈ vs ∨ v = some (m, some k) := by
  have he : ∀ q : Temp × Dist, q.1 = t → s.eval o q.1 q.2 = (s, some (m, some k)) := by
    intro q hq
    obtain ⟨h1, h2, h3⟩ := h
    unfold AssocSt.eval
    simp [h1, hs, hm, h2, h3, hq]
  induction j generalizing vs with
  | zero => exact ⟨rfl, fun v hv => .inl hv⟩
  | succ j ih =>
    unfold consult
    cases hq : proc vs with
    | stop r => exact ⟨rfl, fun v hv => .inl hv⟩
    | ask q =>
      simp only [he q (hp vs q hq)]
      obtain ⟨k1, k2⟩ := ih (vs ++ [some (m, some k)])
      refine ⟨k1, fun v hv => ?_⟩
      rcases k2 v hv with hv | hv
      · rcases List.mem_append.mp hv with hv | hv
        · exact .inl hv
        · exact .inr (List.mem_singleton.mp hv)
      · exact .inr hv

/-- **C139 is violated for association at one temperature**, for the square-well fluid as well: with cutoff distances, when
all states of a data set have the same temperature, every calculation after the first set of parameters `p₀` uses the bonding
volumes of `p₀`, with the energies of the parameters tried. -/
theorem c139_violated_bonding (t : Temp) (hp : ∀ vs q, proc vs = .ask q → q.1 = t) (q₀ : Temp × Dist)
    (hq₀ : proc [] = .ask q₀) (hw : Overwrites w) (lib : Lib) (hb : (AssocSt.init o true lib).flag = true)
    (hrc : ∀ p, o.useRc (o.mats (w p lib)) = true) (p₀ : P) (ps : List P) (p : P) :
    ∀ v ∈ (evaluate (writeAssoc w) (AssocSt.refresh o) (fun q s => s.eval o q.1 q.2) proc (n + 1) p
      (tried (writeAssoc w) (AssocSt.refresh o) (fun q s => s.eval o q.1 q.2) proc (n + 1) (p₀ :: ps)
        (AssocSt.init o true lib))).2.2,
      v = some (o.mats (w p lib), some (o.vol t q₀.2 (o.mats (w p₀ lib)))) := by
  have hq : q₀.1 = t := hp [] q₀ hq₀
  set k := o.vol t q₀.2 (o.mats (w p₀ lib)) with hk
  have hstep : ∀ (a : P) (s : AssocSt Lib Temp Mats Vol), BondStuck t k s → w a s.lib = w a lib →
      BondStuck t k ((writeAssoc w a s).refresh o) ∧ ((writeAssoc w a s).refresh o).mats = o.mats (w a lib) ∧
        ((writeAssoc w a s).refresh o).lib = w a lib := by
    intro a s h hl
    obtain ⟨h1, h2, h3⟩ := h
    unfold AssocSt.refresh writeAssoc BondStuck
    simp [h1, h2, h3, hl]
  have hfirst : BondStuck t k (evaluate (writeAssoc w) (AssocSt.refresh o) (fun q s => s.eval o q.1 q.2) proc (n + 1) p₀
      (AssocSt.init o true lib)).2.1 ∧ (evaluate (writeAssoc w) (AssocSt.refresh o) (fun q s => s.eval o q.1 q.2) proc (n + 1)
        p₀ (AssocSt.init o true lib)).2.1.lib = w p₀ lib := by
    unfold evaluate consult
    simp only [hq₀]
    have hs : ((writeAssoc w p₀ (AssocSt.init o true lib)).refresh o).flag = true ∧
        ((writeAssoc w p₀ (AssocSt.init o true lib)).refresh o).mats = o.mats (w p₀ lib) ∧
        ((writeAssoc w p₀ (AssocSt.init o true lib)).refresh o).vol = none ∧
        ((writeAssoc w p₀ (AssocSt.init o true lib)).refresh o).lib = w p₀ lib := by
      have hf : (writeAssoc w p₀ (AssocSt.init o true lib)).flag = true := hb
      unfold AssocSt.refresh
      rw [if_pos hf]
      exact ⟨hf, rfl, rfl, rfl⟩
    generalize (writeAssoc w p₀ (AssocSt.init o true lib)).refresh o = s at hs
    obtain ⟨s1, s2, s3, s4⟩ := hs
    have he : s.eval o q₀.1 q₀.2 = ({ s with vol := some k, T := some t }, some (o.mats (w p₀ lib), some k)) := by
      unfold AssocSt.eval
      simp [s1, s2, hrc p₀, s3, hq, hk]
    rw [he]
    have hbs : BondStuck t k { s with vol := some k, T := some t } := ⟨s1, rfl, rfl⟩
    obtain ⟨c1, -⟩ := bond_consult o proc t k (o.mats (w p₀ lib)) (hrc p₀) hp n { s with vol := some k, T := some t }
      ([] ++ [some (o.mats (w p₀ lib), some k)]) hbs s2
    rw [c1]
    exact ⟨hbs, s4⟩
  have hlater : ∀ (ps : List P) (s : AssocSt Lib Temp Mats Vol) (a : P), BondStuck t k s → s.lib = w a lib →
      BondStuck t k (tried (writeAssoc w) (AssocSt.refresh o) (fun q s => s.eval o q.1 q.2) proc (n + 1) ps s) ∧
      ∃ b, (tried (writeAssoc w) (AssocSt.refresh o) (fun q s => s.eval o q.1 q.2) proc (n + 1) ps s).lib = w b lib := by
    intro ps
    induction ps with
    | nil => intro s a h hl; exact ⟨h, a, hl⟩
    | cons b ps ih =>
      intro s a h hl
      obtain ⟨g1, g2, g3⟩ := hstep b s h (by rw [hl, hw])
      obtain ⟨c1, -⟩ := bond_consult o proc t k (o.mats (w b lib)) (hrc b) hp (n + 1) _ [] g1 g2
      refine ih _ b ?_ ?_
      · show BondStuck t k (consult _ _ _ _ _).2.1
        rw [c1]; exact g1
      · show AssocSt.lib (consult _ _ _ _ _).2.1 = _
        rw [c1]; exact g3
  obtain ⟨e1, b, e2⟩ := hlater ps _ p₀ hfirst.1 hfirst.2
  obtain ⟨g1, g2, g3⟩ := hstep p _ e1 (by rw [e2, hw])
  intro v hv
  rcases (bond_consult o proc t k (o.mats (w p lib)) (hrc p) hp (n + 1) _ [] g1 g2).2 v hv with h | h
  · cases h
  · exact h

end
end

open scoped Classical in
/-- **C139 is violated, an example**: one group, one state at 300 K, the fitted parameter is the diameter `σ`. At `σ = 2` the
calculation returns one hard-sphere diameter when it is the first set tried, and another one when `σ = 1` was tried before. -/
theorem c139_violated :
    let proc : List (Unit × ℝ × ℝ × Unit × Option ℝ × Option ℝ × Option Unit) → Next (ℝ × Unit) (Option ℝ) :=
      fun vs => match vs with
        | [] => .ask (300, ())
        | v :: _ => .stop v.2.2.2.2.1
    let value : List ℝ → Option (Option ℝ) := fun ps =>
      (evaluate (writeMie fun σ _ => σ) (MieSt.refresh oneGroup) (askMie oneGroup) proc 2 2
        (tried (writeMie fun σ _ => σ) (MieSt.refresh oneGroup) (askMie oneGroup) proc 2 ps (MieSt.init oneGroup 1 ()))).1
    value [] ≠ value [1] := by
  intro proc value
  have h1 : value [] = some (some (oneGroup.dia 300 2 2)) := by
    simp [value, proc, tried, evaluate, consult, askMie, writeMie, MieSt.refresh, MieSt.eval, MieSt.checkT, MieSt.rules,
      MieSt.diameters, MieSt.checkX, MieSt.init, MieSt.matrices, MieSt.finish, MieSt.view, oneGroup]
  have h2 : value [1] = some (some (oneGroup.dia 300 1 1)) := by
    simp [value, proc, tried, evaluate, consult, askMie, writeMie, MieSt.refresh, MieSt.eval, MieSt.checkT, MieSt.rules,
      MieSt.diameters, MieSt.checkX, MieSt.init, MieSt.matrices, MieSt.finish, MieSt.view, oneGroup]
  rw [h1, h2]
  intro h
  exact (oneGroup_double 300 (by norm_num)).1 (Option.some.inj (Option.some.inj h))

open scoped Classical in
/-- Two states, at 300 K and at 310 K: the assumptions of `c139_several_temperatures` are met. -/
example (ps : List ℝ) :
    let proc : List (Unit × ℝ × ℝ × Unit × Option ℝ × Option ℝ × Option Unit) → Next (ℝ × Unit) (Option ℝ) :=
      fun vs => match vs with
        | [] => .ask (300, ())
        | [_] => .ask (310, ())
        | v :: _ => .stop v.2.2.2.2.1
    (evaluate (writeMie fun σ _ => σ) (MieSt.refresh oneGroup) (askMie oneGroup) proc 3 2
        (tried (writeMie fun σ _ => σ) (MieSt.refresh oneGroup) (askMie oneGroup) proc 3 ps (MieSt.init oneGroup 1 ()))).1 =
      some (some (oneGroup.dia 300 2 2)) := by
  intro proc
  have h := (c139_several_temperatures oneGroup (fun (σ : ℝ) _ => σ) proc 3 (fun _ _ _ => rfl) 1 () 300
    (by show (298 : ℝ) ≠ 300; norm_num) (fun q hq => by cases hq; rfl) (fun s => by
      have : (consult (askMie oneGroup) proc 3 s []).2.1 = (s.eval oneGroup 300 ()).eval oneGroup 310 () := rfl
      rw [this]
      have hT : ((s.eval oneGroup 300 ()).eval oneGroup 310 ()).T = some 310 := by
        unfold MieSt.eval MieSt.checkX MieSt.checkT MieSt.rules MieSt.diameters
        dsimp only
        split_ifs <;> simp_all
      rw [hT]
      intro h
      have := Option.some.inj h
      norm_num at this) ps 2).1
  rw [h]
  simp [proc, consult, askMie, MieSt.eval, MieSt.checkT, MieSt.rules, MieSt.diameters, MieSt.checkX, MieSt.init, MieSt.view,
    oneGroup]

/-- The logarithm of the cutoff distance of one site is fitted to one state at 300 K: all evaluations are computed with the
bonding volume of the cutoff distance tried first. -/
example (a b : ℝ) (ps : List ℝ) :
    let proc : List (Option ((ℝ × ℝ) × Option ℝ)) → Next (ℕ × ℝ) (Option ((ℝ × ℝ) × Option ℝ)) :=
      fun vs => match vs with
        | [] => .ask (300, 1)
        | v :: _ => .stop v
    ∀ v ∈ (evaluate (writeAssoc fun x l => (l.1, Real.exp x)) (AssocSt.refresh oneSiteOps)
      (fun q s => s.eval oneSiteOps q.1 q.2) proc 2 b
      (tried (writeAssoc fun x l => (l.1, Real.exp x)) (AssocSt.refresh oneSiteOps) (fun q s => s.eval oneSiteOps q.1 q.2) proc 2
        (a :: ps) (AssocSt.init oneSiteOps true (1000, 1)))).2.2,
      v = some ((1000, Real.exp b), some (oneSiteOps.vol 300 1 (1000, Real.exp a))) := by
  intro proc
  exact c139_violated_bonding oneSiteOps (fun x l => (l.1, Real.exp x)) proc 1 300
    (fun vs q h => by
      match vs, h with
      | [], h => cases h; rfl
      | _ :: _, h => cases h)
    (300, 1) rfl (fun _ _ _ => rfl) (1000, 1) (by simp [AssocSt.init, oneSiteOps])
    (fun p => by simp [oneSiteOps, Real.exp_ne_zero]) a ps b

/-! ## Fitted parameters overwrite each other -/

section
open Verif.Interface Verif.FitInput
variable {ν : Type}

/-- Specification: what an equation of state reads for one group, or for a pair of groups in either order. -/
def reading (e : Eos Str ν) : List Str → String → Option ν
  | [b], p => (e.lib.get? b).bind (·.get? p)
  | [a, b], p => pairGet e.cross a b p
  | _, _ => none

/-- Specification: the groups and the parameter that a written entry is read under. -/
def SameEntry (bs : List Str) (p : String) (as : List Str) (q : String) : Prop :=
  q = p ∧ (as = bs ∨ as = bs.reverse)

open scoped Classical in
/-- Specification: the value that a set of fitted parameters gives an entry; the writing ends at the first name that is
refused. -/
noncomputable def assigned (e : Eos Str ν) (bead : Str) : List Str → List ν → List Str → String → Option ν
  | n :: ns, v :: vs, as, q =>
    match address bead n with
    | .error _ => none
    | .ok a => if accepts e (String.ofList a.1) a.2 then
        (assigned e bead ns vs as q).or (if SameEntry a.2 (String.ofList a.1) as q then some v else none)
      else none
  | _, _, _, _ => none

theorem address_length (bead name : Str) (a : Str × List Str) (h : address bead name = .ok a) :
    a.2 = [bead] ∨ ∃ b, a.2 = [bead, b] := by
  unfold address at h
  split at h
  · cases h; exact .inl rfl
  · cases h; exact .inr ⟨_, rfl⟩
  · cases h

theorem accepts_same (e e' : Eos Str ν) (h1 : e'.beads = e.beads) (h2 : e'.types = e.types) (p : String) (bs : List Str) :
    accepts e' p bs = accepts e p bs := by
  unfold accepts; rw [h1, h2]

theorem assigned_same (e e' : Eos Str ν) (h1 : e'.beads = e.beads) (h2 : e'.types = e.types) (bead : Str) (ns : List Str)
    (vs : List ν) (as : List Str) (q : String) : assigned e' bead ns vs as q = assigned e bead ns vs as q := by
  induction ns generalizing vs with
  | nil => rfl
  | cons n ns ih =>
    cases vs with
    | nil => rfl
    | cons v vs => simp only [assigned, accepts_same e e' h1 h2, ih]

open scoped Classical in
theorem update_reading (e e' : Eos Str ν) (p : String) (bs : List Str) (v : ν) (hb : bs.length = 1 ∨ bs.length = 2)
    (ho : Oriented e.cross) (h : updateParameter e p bs v = .ok e') :
    e'.beads = e.beads ∧ e'.types = e.types ∧ Oriented e'.cross ∧
      ∀ as q, reading e' as q = if SameEntry bs p as q then some v else reading e as q := by
  unfold updateParameter at h
  split at h
  · match bs, hb, h with
    | [b], _, h =>
      cases h
      refine ⟨rfl, rfl, ho, ?_⟩
      intro as q
      match as with
      | [] => simp [reading, SameEntry]
      | [a] =>
        simp only [reading, c12_self, SameEntry, List.reverse_singleton, List.cons.injEq, and_true, or_self]
        exact if_congr and_comm rfl rfl
      | [a, c] => simp [reading, SameEntry]
      | _ :: _ :: _ :: _ => simp [reading, SameEntry]
    | [b0, b1], _, h =>
      cases h
      refine ⟨rfl, rfl, c12_oriented _ ho _ _ _ _, ?_⟩
      intro as q
      match as with
      | [] => simp [reading, SameEntry]
      | [a] => simp [reading, SameEntry]
      | [a, c] =>
        simp only [reading, c12_cross_partial _ ho, SameEntry, List.reverse_cons, List.reverse_nil, List.nil_append,
          List.cons_append, List.cons.injEq, and_true]
        exact if_congr and_comm rfl rfl
      | _ :: _ :: _ :: _ => simp [reading, SameEntry]
  · cases h

/-- **C139 (writing).** After writing a set of parameters every entry of the libraries reads as the set says, or as before
when the set does not name it; the writing ends at the first name that is refused. -/
theorem c139_written (bead : Str) (ns : List Str) (vs : List ν) (hl : vs.length = ns.length) (e : Eos Str ν)
    (ho : Oriented e.cross) :
    (writeFitted bead ns vs e).2.beads = e.beads ∧ (writeFitted bead ns vs e).2.types = e.types ∧
      Oriented (writeFitted bead ns vs e).2.cross ∧
      ∀ as q, reading (writeFitted bead ns vs e).2 as q = (assigned e bead ns vs as q).or (reading e as q) := by
  induction ns generalizing vs e with
  | nil => exact ⟨rfl, rfl, ho, fun as q => by simp [assigned, writeFitted, updateParameters]⟩
  | cons n ns ih =>
    cases vs with
    | nil => cases hl
    | cons v vs =>
      unfold writeFitted updateParameters
      cases ha : address bead n with
      | error er => exact ⟨rfl, rfl, ho, fun as q => by simp [assigned, ha]⟩
      | ok a =>
        simp only
        cases hu : updateParameter e (String.ofList a.1) a.2 v with
        | error er =>
          have hacc : accepts e (String.ofList a.1) a.2 = false := by
            unfold updateParameter at hu
            by_contra hc
            rw [if_pos (by simpa using hc)] at hu
            rcases address_length bead n a ha with h | ⟨b, h⟩ <;> rw [h] at hu <;> cases hu
          exact ⟨rfl, rfl, ho, fun as q => by simp [assigned, ha, hacc]⟩
        | ok e' =>
          have hacc : accepts e (String.ofList a.1) a.2 = true := by
            unfold updateParameter at hu
            by_contra hc
            rw [if_neg hc] at hu
            cases hu
          have hlen : a.2.length = 1 ∨ a.2.length = 2 := by
            rcases address_length bead n a ha with h | ⟨b, h⟩ <;> simp [h]
          obtain ⟨u1, u2, u3, u4⟩ := update_reading e e' _ _ v hlen ho hu
          obtain ⟨i1, i2, i3, i4⟩ := ih vs (by simpa using hl) e' u3
          refine ⟨i1.trans u1, i2.trans u2, i3, ?_⟩
          intro as q
          have := i4 as q
          unfold writeFitted at this
          rw [this, assigned_same e e' u1 u2, u4]
          simp only [assigned, ha, hacc, if_true, Option.or_assoc]
          split <;> simp

theorem assigned_isSome (e : Eos Str ν) (bead : Str) (ns : List Str) (vs vs' : List ν) (hl : vs.length = ns.length)
    (hl' : vs'.length = ns.length) (as : List Str) (q : String) :
    (assigned e bead ns vs as q).isSome = (assigned e bead ns vs' as q).isSome := by
  induction ns generalizing vs vs' with
  | nil => simp [assigned]
  | cons n ns ih =>
    cases vs with
    | nil => cases hl
    | cons v vs =>
      cases vs' with
      | nil => cases hl'
      | cons v' vs' =>
        simp only [assigned]
        cases address bead n with
        | error _ => rfl
        | ok a =>
          simp only
          split
          · simp only [Option.isSome_or, ih vs vs' (by simpa using hl) (by simpa using hl')]
            split <;> rfl
          · rfl

/-- **C139 (overwriting).** In libraries that list no pair in both orders, writing one set of parameters after another leaves
nothing of the other: every entry reads as if only the last set had been written, also when the writing fails on the way. -/
theorem c139_overwritten (bead : Str) (ns : List Str) (vs vs' : List ν) (hl : vs.length = ns.length)
    (hl' : vs'.length = ns.length) (e : Eos Str ν) (ho : Oriented e.cross) (as : List Str) (q : String) :
    reading (writeFitted bead ns vs (writeFitted bead ns vs' e).2).2 as q = reading (writeFitted bead ns vs e).2 as q := by
  obtain ⟨h1, h2, h3, h4⟩ := c139_written bead ns vs' hl' e ho
  obtain ⟨-, -, -, k4⟩ := c139_written bead ns vs hl (writeFitted bead ns vs' e).2 h3
  obtain ⟨-, -, -, m4⟩ := c139_written bead ns vs hl e ho
  rw [k4, m4, h4, assigned_same _ _ h1 h2, ← Option.or_assoc]
  have := assigned_isSome e bead ns vs vs' hl hl' as q
  cases h : assigned e bead ns vs as q with
  | some x => simp
  | none =>
    rw [h] at this
    cases h' : assigned e bead ns vs' as q with
    | none => rfl
    | some y => rw [h'] at this; cases this

/-- Two parameters of the group `A`, one for the pair `A`, `B`: the second set replaces the first. -/
example : (writeFitted "A".toList ["epsilon".toList, "epsilon_B".toList] [(3 : ℕ), 4]
      (writeFitted "A".toList ["epsilon".toList, "epsilon_B".toList] [(1 : ℕ), 2]
        ⟨["A".toList, "B".toList], ["epsilon"], ⟨[("A".toList, ⟨[("epsilon", 0)]⟩)]⟩, ⟨[]⟩⟩).2).2.lib.get? "A".toList =
    some ⟨[("epsilon", 3)]⟩ := by decide +kernel

end

end Verif.Props
