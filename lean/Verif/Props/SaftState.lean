import Mathlib.Tactic.Linarith
import Verif.Model.SaftState
import Verif.Model.AssocXika
import Verif.Props.MiePotential
import Verif.Props.BondingVolume

/-!
# C26, C27, C28: objects after a change of parameters
-/

namespace Verif.Props

open Verif.SaftState

/-! ## C26: SAFT-γ-Mie -/

section Mie

variable {Lib Rule Temp Comp Sk Kl Avg Al Dia Chain Seg : Type}
variable [DecidableEq Temp] [DecidableEq Comp]
variable (o : MieOps Lib Rule Temp Comp Sk Kl Avg Al Dia Chain Seg)

/-- Without a temperature in the rules, none is ever stored there. -/
def RuleInv (r : Rule) (s : MieSt Lib Rule Temp Comp Sk Kl Avg Al Dia Chain Seg) : Prop :=
  s.rule = r ∧ (o.tdep r = false → s.ruleT = none ∧ s.fixed = false)

omit [DecidableEq Comp] in
theorem ruleInv_checkT {r : Rule} {s : MieSt Lib Rule Temp Comp Sk Kl Avg Al Dia Chain Seg}
    (h : RuleInv o r s) (t : Temp) : RuleInv o r (s.checkT o t) := by
  obtain ⟨h1, h2⟩ := h
  unfold MieSt.checkT MieSt.rules MieSt.diameters RuleInv
  by_cases ht : s.T = some t
  · simpa [ht] using ⟨h1, h2⟩
  · by_cases hr : o.tdep s.rule
    · simp only [ht, if_false, hr, if_true]
      exact ⟨h1, fun h => by rw [h1, h] at hr; cases hr⟩
    · simp only [ht, if_false, hr]
      exact ⟨h1, h2⟩

theorem ruleInv_step {r : Rule} {s : MieSt Lib Rule Temp Comp Sk Kl Avg Al Dia Chain Seg}
    (h : RuleInv o r s) (e : Event Lib Temp Comp) : RuleInv o r (s.step o e) := by
  cases e with
  | eval t x =>
    have := ruleInv_checkT o h t
    show RuleInv o r ((s.checkT o t).checkX o x)
    unfold MieSt.checkX
    split
    · exact this
    · exact this
  | update f => exact h
  | refresh =>
    exact ruleInv_checkT o (s := s.matrices o) h _

theorem ruleInv_run {r : Rule} {s : MieSt Lib Rule Temp Comp Sk Kl Avg Al Dia Chain Seg}
    (h : RuleInv o r s) (es : List (Event Lib Temp Comp)) : RuleInv o r (es.foldl (MieSt.step o) s) := by
  induction es generalizing s with
  | nil => exact h
  | cons e es ih => exact ih (ruleInv_step o h e)

/-- After a refresh everything but the temperature-dependent arrays follows from the library. -/
structure Fresh (s : MieSt Lib Rule Temp Comp Sk Kl Avg Al Dia Chain Seg) : Prop where
  sk : s.sk = o.sk s.lib
  kl : s.kl = o.kl s.lib s.rule s.ruleT s.fixed
  avg : s.avg = o.avg s.kl s.sk
  al : s.al = o.al s.kl
  seg : ∀ x, s.xi = some x → s.seg = some (o.seg x s.lib)

omit [DecidableEq Comp] in
theorem fresh_refresh (s : MieSt Lib Rule Temp Comp Sk Kl Avg Al Dia Chain Seg) :
    Fresh o (s.refresh o) ∧ (s.refresh o).lib = s.lib ∧ (s.refresh o).rule = s.rule ∧
      (s.refresh o).T = some (s.T.getD o.t298) ∧ (s.refresh o).xi = s.xi := by
  obtain ⟨lib, rule, ruleT, fixed, T, xi, sk, kl, avg, al, dia, chain, seg⟩ := s
  unfold MieSt.refresh MieSt.checkT MieSt.rules MieSt.diameters MieSt.matrices MieSt.finish
  cases T with
  | some T =>
    simp only [Option.getD_some, if_true]
    refine ⟨⟨rfl, rfl, rfl, rfl, ?_⟩, trivial, trivial, trivial, trivial⟩
    rintro x rfl
    rfl
  | none =>
    simp only [Option.getD_none, reduceCtorEq, if_false]
    by_cases hr : o.tdep rule
    · simp only [hr, if_true]
      refine ⟨⟨rfl, rfl, rfl, rfl, ?_⟩, trivial, trivial, trivial, trivial⟩
      rintro x rfl
      rfl
    · simp only [hr]
      refine ⟨⟨rfl, rfl, rfl, rfl, ?_⟩, rfl, rfl, rfl, rfl⟩
      rintro x hx
      change xi = some x at hx
      subst hx
      rfl

theorem eval_fresh {r : Rule} {s : MieSt Lib Rule Temp Comp Sk Kl Avg Al Dia Chain Seg}
    (hf : Fresh o s) (hr : RuleInv o r s) {t : Temp} (ht : s.T ≠ some t) (x : Comp) :
    (s.eval o t x).view = ((MieSt.init o s.lib r).eval o t x).view := by
  obtain ⟨lib, rule, ruleT, fixed, T, xi, sk, kl, avg, al, dia, chain, seg⟩ := s
  obtain ⟨h1, h2⟩ := hr
  obtain ⟨f1, f2, f3, f4, f5⟩ := hf
  simp only at h1 h2 f1 f2 f3 f4 f5 ht
  subst h1 f4 f3 f2 f1
  have hB : (MieSt.init o lib rule).T ≠ some t := fun h => by cases h
  have hC : (MieSt.init o lib rule).xi ≠ some x := fun h => by cases h
  show (MieSt.checkX o x (MieSt.checkT o t _)).view = (MieSt.checkX o x (MieSt.checkT o t _)).view
  rw [MieSt.checkT, if_neg ht, MieSt.checkT, if_neg hB, MieSt.rules, MieSt.rules]
  by_cases hd : o.tdep rule = true
  · rw [if_pos hd, if_pos (show o.tdep (MieSt.init o lib rule).rule = true from hd)]
    rw [MieSt.checkX, MieSt.checkX]
    by_cases hx : xi = some x
    · rw [if_pos (by exact hx), if_neg (by exact hC)]
      simp only [MieSt.view, MieSt.diameters, f5 x hx, MieSt.init]
    · rw [if_neg (by exact hx), if_neg (by exact hC)]
      rfl
  · obtain ⟨rfl, rfl⟩ := h2 (by simpa using hd)
    rw [if_neg hd, if_neg (show ¬ o.tdep (MieSt.init o lib rule).rule = true from hd)]
    rw [MieSt.checkX, MieSt.checkX]
    by_cases hx : xi = some x
    · rw [if_pos (by exact hx), if_neg (by exact hC)]
      simp only [MieSt.view, MieSt.diameters, f5 x hx, MieSt.init]
    · rw [if_neg (by exact hx), if_neg (by exact hC)]
      rfl

/-- **C26** (what holds): whatever happened before the last refresh, an evaluation at a temperature
other than the one the object was at (298 K if it had none) reads the same values as the evaluation
of an object newly built from the current library.  Missing: an evaluation at the same temperature,
see `c26_violated`. -/
theorem c26_partial (lib : Lib) (r : Rule) (es : List (Event Lib Temp Comp)) (t : Temp) (x : Comp) :
    let s := es.foldl (MieSt.step o) (MieSt.init o lib r)
    s.T.getD o.t298 ≠ t → ((s.refresh o).eval o t x).view = ((MieSt.init o s.lib r).eval o t x).view := by
  intro s ht
  have h0 : RuleInv o r (MieSt.init o lib r) := ⟨rfl, fun _ => ⟨rfl, rfl⟩⟩
  have hs : RuleInv o r s := ruleInv_run o h0 es
  have hf := fresh_refresh o s
  have hr : RuleInv o r (s.refresh o) := ruleInv_step o hs .refresh
  have := eval_fresh o hf.1 hr (t := t) (by rw [hf.2.2.2.1]; simpa using ht) x
  rwa [hf.2.1] at this

/-- **C26** (what holds): the same for an object built with its own combining rules. -/
theorem c26_custom_partial (lib : Lib) (r₀ r : Rule) (es : List (Event Lib Temp Comp)) (t : Temp) (x : Comp) :
    let s := es.foldl (MieSt.step o) (MieSt.custom o lib r₀ r)
    s.T.getD o.t298 ≠ t → ((s.refresh o).eval o t x).view = ((MieSt.init o s.lib r).eval o t x).view := by
  intro s ht
  have h0 : RuleInv o r (MieSt.custom o lib r₀ r) :=
    ruleInv_step o (e := .refresh) (s := { MieSt.init o lib r₀ with rule := r }) ⟨rfl, fun _ => ⟨rfl, rfl⟩⟩
  have hs : RuleInv o r s := ruleInv_run o h0 es
  have hf := fresh_refresh o s
  have hr : RuleInv o r (s.refresh o) := ruleInv_step o hs .refresh
  have := eval_fresh o hf.1 hr (t := t) (by rw [hf.2.2.2.1]; simpa using ht) x
  rwa [hf.2.1] at this

/-- **C26** (what holds at the same temperature): all arrays but the hard-sphere diameters and the
chain arrays are those of a newly built object, when no rule depends on temperature. -/
theorem c26_same_temperature_partial (lib : Lib) (r : Rule) (hd : o.tdep r = false)
    (es : List (Event Lib Temp Comp)) (t : Temp) (x : Comp) :
    let s := es.foldl (MieSt.step o) (MieSt.init o lib r)
    let a := (s.refresh o).eval o t x
    let b := (MieSt.init o s.lib r).eval o t x
    (a.sk, a.kl, a.avg, a.al, a.seg) = (b.sk, b.kl, b.avg, b.al, b.seg) := by
  intro s a b
  have h0 : RuleInv o r (MieSt.init o lib r) := ⟨rfl, fun _ => ⟨rfl, rfl⟩⟩
  have hs : RuleInv o r s := ruleInv_run o h0 es
  obtain ⟨hf, e1, e2, e3, e4⟩ := fresh_refresh o s
  have hr : RuleInv o r (s.refresh o) := ruleInv_step o hs .refresh
  simp only [a, b]
  rw [← e1]
  generalize s.refresh o = u at hf hr
  obtain ⟨lib, rule, ruleT, fixed, T, xi, sk, kl, avg, al, dia, chain, seg⟩ := u
  obtain ⟨h1, h2⟩ := hr
  obtain ⟨f1, f2, f3, f4, f5⟩ := hf
  simp only at h1 h2 f1 f2 f3 f4 f5
  subst h1
  obtain ⟨rfl, rfl⟩ := h2 hd
  subst f4 f3 f2 f1
  have hB : (MieSt.init o lib rule).T ≠ some t := fun h => by cases h
  have hC : (MieSt.init o lib rule).xi ≠ some x := fun h => by cases h
  have hd' : ¬ o.tdep rule = true := by simp [hd]
  have hv : (MieSt.init o lib rule).eval o t x =
      { (({ MieSt.init o lib rule with T := some t }).diameters o t) with
        seg := some (o.seg x lib), xi := some x } := by
    show MieSt.checkX o x (MieSt.checkT o t _) = _
    rw [MieSt.checkT, if_neg hB, MieSt.rules,
      if_neg (show ¬ o.tdep (MieSt.init o lib rule).rule = true from hd'), MieSt.checkX,
      if_neg (by exact hC)]
    rfl
  rw [hv]
  unfold MieSt.eval
  rw [MieSt.checkT]
  by_cases ht : T = some t
  · rw [if_pos (by exact ht), MieSt.checkX]
    by_cases hx : xi = some x
    · rw [if_pos (by exact hx)]
      simp only [MieSt.diameters, f5 x hx, MieSt.init]
    · rw [if_neg (by exact hx)]
      rfl
  · rw [if_neg (by exact ht), MieSt.rules, if_neg (by exact hd'), MieSt.checkX]
    by_cases hx : xi = some x
    · rw [if_pos (by exact hx)]
      simp only [MieSt.diameters, f5 x hx, MieSt.init]
    · rw [if_neg (by exact hx)]
      rfl

/-- **C26** (the cause): after an evaluation at `t`, a change and a refresh, an evaluation at `t` uses
the diameters of the library before the change. -/
theorem c26_stale (lib : Lib) (r : Rule) (hd : o.tdep r = false) (f : Lib → Lib) (t : Temp) (x : Comp) :
    ((((((MieSt.init o lib r).eval o t x).step o (.update f)).refresh o).eval o t x).dia =
      some (o.dia t (o.kl lib r none false) lib)) := by
  simp [MieSt.step, MieSt.refresh, MieSt.eval, MieSt.checkT, MieSt.rules, MieSt.diameters,
    MieSt.checkX, MieSt.init, MieSt.matrices, MieSt.finish, hd]

/-- **C26** (the cause, second): an object that was never evaluated is put at 298 K by a refresh, with
chain arrays from the averages before the change. -/
theorem c26_stale_298 (lib : Lib) (r : Rule) (hd : o.tdep r = false) (f : Lib → Lib) (x : Comp) :
    (((((MieSt.init o lib r).step o (.update f)).refresh o).eval o o.t298 x).chain =
      some (o.chain (o.sk (f lib)) (o.dia o.t298 (o.kl (f lib) r none false) (f lib))
        (o.avg (o.kl lib r none false) (o.sk lib)))) := by
  simp [MieSt.step, MieSt.refresh, MieSt.eval, MieSt.checkT, MieSt.rules, MieSt.diameters,
    MieSt.checkX, MieSt.init, MieSt.matrices, MieSt.finish, hd]

end Mie

open Verif.GammaMie in
/-- One component made of one group with diameter `σ` (the library), well depth 100 K and exponents
12 and 6: the diameter is the one computed by the code, the chain entry is `x0ii = σ_avg / d_eff`. -/
noncomputable def oneGroup : MieOps ℝ Unit ℝ Unit Unit ℝ ℝ Unit ℝ ℝ Unit where
  sk := fun _ => ()
  kl := fun σ _ _ _ => σ
  avg := fun σ _ => σ
  al := fun _ => ()
  dia := fun T σ _ => groupDiameter 100 σ T 12 6
  chain := fun _ d a => a / d
  seg := fun _ _ => ()
  tdep := fun _ => false
  t298 := 298

theorem oneGroup_double (T : ℝ) (hT : 0 < T) :
    oneGroup.dia T 2 2 ≠ oneGroup.dia T 1 1 ∧ oneGroup.dia T 1 1 ≠ 0 := by
  have h := c60_diameter_scale 100 1 T 12 6 2 (by norm_num)
  have hp := c60_diameter_pos 100 1 T 12 6 (by norm_num) (by norm_num) hT (by norm_num) (by norm_num)
  rw [mul_one] at h
  refine ⟨?_, hp.ne'⟩
  show Verif.GammaMie.groupDiameter 100 2 T 12 6 ≠ Verif.GammaMie.groupDiameter 100 1 T 12 6
  rw [h]
  linarith

open scoped Classical in
/-- **C26** is violated: an object with one group is evaluated at 300 K, the diameter of the group is
doubled, the object is refreshed and evaluated at 300 K again; it then uses the old hard-sphere
diameter, a newly built object a different one. -/
theorem c26_violated :
    ((((((MieSt.init oneGroup 1 ()).eval oneGroup 300 ()).step oneGroup (.update fun _ => 2)).refresh oneGroup).eval oneGroup 300 ()).view
      ≠ ((MieSt.init oneGroup 2 ()).eval oneGroup 300 ()).view) := by
  intro h
  have h1 := congrArg (fun v => v.2.2.2.2.1) h
  have h2 := c26_stale oneGroup 1 () rfl (fun _ => (2 : ℝ)) 300 ()
  change (((((MieSt.init oneGroup 1 ()).eval oneGroup 300 ()).step oneGroup (.update fun _ => 2)).refresh oneGroup).eval oneGroup 300 ()).dia
    = ((MieSt.init oneGroup 2 ()).eval oneGroup 300 ()).dia at h1
  rw [h2] at h1
  have h3 : ((MieSt.init oneGroup 2 ()).eval oneGroup 300 ()).dia = some (oneGroup.dia 300 2 2) := by
    simp [MieSt.eval, MieSt.checkT, MieSt.rules, MieSt.diameters, MieSt.checkX, MieSt.init, oneGroup]
  rw [h3] at h1
  exact (oneGroup_double 300 (by norm_num)).1 (Option.some.inj h1).symm

open scoped Classical in
/-- **C26** is violated also without an earlier evaluation: after a change and a refresh the first
evaluation at exactly 298 K uses a ratio of the old average diameter and the new hard-sphere
diameter. -/
theorem c26_violated_298 :
    (((((MieSt.init oneGroup 1 ()).step oneGroup (.update fun _ => 2)).refresh oneGroup).eval oneGroup 298 ()).view
      ≠ ((MieSt.init oneGroup 2 ()).eval oneGroup 298 ()).view) := by
  intro h
  have h1 := congrArg (fun v => v.2.2.2.2.2.1) h
  have h2 := c26_stale_298 oneGroup 1 () rfl (fun _ => (2 : ℝ)) ()
  change ((((MieSt.init oneGroup 1 ()).step oneGroup (.update fun _ => 2)).refresh oneGroup).eval oneGroup 298 ()).chain
    = ((MieSt.init oneGroup 2 ()).eval oneGroup 298 ()).chain at h1
  have h4 : oneGroup.t298 = 298 := rfl
  rw [h4] at h2
  rw [h2] at h1
  have h3 : ((MieSt.init oneGroup 2 ()).eval oneGroup 298 ()).chain = some (2 / oneGroup.dia 298 2 2) := by
    simp [MieSt.eval, MieSt.checkT, MieSt.rules, MieSt.diameters, MieSt.checkX, MieSt.init, oneGroup]
  rw [h3] at h1
  have h5 : (1 : ℝ) / oneGroup.dia 298 2 2 = 2 / oneGroup.dia 298 2 2 := Option.some.inj h1
  have h6 := c60_diameter_pos 100 2 298 12 6 (by norm_num) (by norm_num) (by norm_num) (by norm_num) (by norm_num)
  have h7 : oneGroup.dia 298 2 2 ≠ 0 := h6.ne'
  rw [div_left_inj' h7] at h5
  norm_num at h5

/-- A history to which `c26_partial` applies at every temperature but 310: the matrices are stale
before the refresh. -/
example : let o : MieOps ℕ Unit ℕ ℕ ℕ ℕ ℕ ℕ ℕ ℕ ℕ :=
      { sk := id, kl := fun l _ _ _ => l, avg := (· + ·), al := id, dia := fun t k _ => t + k,
        chain := fun a b c => a + b + c, seg := (· + ·), tdep := fun _ => false, t298 := 298 }
    let s := ([.eval 300 7, .update (· + 1), .refresh, .eval 310 8, .update (· + 5)] :
      List (Event ℕ ℕ ℕ)).foldl (MieSt.step o) (MieSt.init o 1 ())
    s.T.getD o.t298 = 310 ∧ s.lib = 7 ∧ s.kl = 2 := by decide

/-! ## C27: SAFT-γ-SW -/

section Sw

variable {Lib Rule Temp Comp Sk Kl Avg Al Seg : Type} [DecidableEq Comp]
variable (o : SwOps Lib Rule Comp Sk Kl Avg Al Seg)

theorem sw_rule_run (s : SwSt Lib Rule Comp Sk Kl Avg Al Seg) (es : List (Event Lib Temp Comp)) :
    (es.foldl (SwSt.step o) s).rule = s.rule := by
  induction es generalizing s with
  | nil => rfl
  | cons e es ih =>
    rw [List.foldl_cons, ih]
    cases e with
    | eval t x =>
      show (s.eval o x).rule = s.rule
      unfold SwSt.eval
      split <;> rfl
    | update f => rfl
    | refresh => rfl

theorem sw_eval_refresh (s : SwSt Lib Rule Comp Sk Kl Avg Al Seg) (x : Comp) :
    ((s.refresh o).eval o x).view = ((SwSt.init o s.lib s.rule).eval o x).view := by
  unfold SwSt.eval SwSt.refresh SwSt.init SwSt.view
  by_cases hx : s.xi = some x
  · simp [hx]
  · simp [hx]

/-- **C27**: whatever happened before the last refresh, an evaluation reads the same values as the
evaluation of an object newly built from the current library. -/
theorem c27_refresh (lib : Lib) (r : Rule) (es : List (Event Lib Temp Comp)) (x : Comp) :
    let s := es.foldl (SwSt.step o) (SwSt.init o lib r)
    ((s.refresh o).eval o x).view = ((SwSt.init o s.lib r).eval o x).view := by
  intro s
  have : s.rule = r := sw_rule_run o _ es
  rw [sw_eval_refresh o s x, this]

/-- **C27**: the same for an object built with its own combining rules, also right after building. -/
theorem c27_custom (lib : Lib) (r₀ r : Rule) (es : List (Event Lib Temp Comp)) (x : Comp) :
    ((SwSt.custom o lib r₀ r).eval o x).view = ((SwSt.init o lib r).eval o x).view ∧
    (let s := es.foldl (SwSt.step o) (SwSt.custom o lib r₀ r)
     ((s.refresh o).eval o x).view = ((SwSt.init o s.lib r).eval o x).view) := by
  refine ⟨sw_eval_refresh o _ x, ?_⟩
  intro s
  have : s.rule = r := sw_rule_run o _ es
  rw [sw_eval_refresh o s x, this]

/-- **C27**: the library after a history is the result of its updates only. -/
theorem c27_library (lib : Lib) (r : Rule) (es : List (Event Lib Temp Comp)) :
    (es.foldl (SwSt.step o) (SwSt.init o lib r)).lib =
      es.foldl (fun l e => match e with | .update f => f l | _ => l) lib := by
  have : ∀ s : SwSt Lib Rule Comp Sk Kl Avg Al Seg, (es.foldl (SwSt.step o) s).lib =
      es.foldl (fun l e => match e with | .update f => f l | _ => l) s.lib := by
    induction es with
    | nil => intro s; rfl
    | cons e es ih =>
      intro s
      rw [List.foldl_cons, List.foldl_cons, ih]
      cases e with
      | eval t x =>
        show es.foldl _ (s.eval o x).lib = _
        unfold SwSt.eval
        split <;> rfl
      | update f => rfl
      | refresh => rfl
  exact this _

/-- Without the final refresh the values can be stale: the refresh in `c27_refresh` is needed. -/
example : let o : SwOps ℕ Unit ℕ ℕ ℕ ℕ ℕ ℕ :=
      { sk := id, kl := fun l _ => l, avg := (· + ·), al := id, seg := (· + ·) }
    let s := ([.eval 300 7, .update (· + 1)] : List (Event ℕ ℕ ℕ)).foldl (SwSt.step o) (SwSt.init o 1 ())
    (s.eval o 7).view ≠ ((SwSt.init o s.lib ()).eval o 7).view ∧
      ((s.refresh o).eval o 7).view = ((SwSt.init o s.lib ()).eval o 7).view := by decide

end Sw

/-! ## C28: association parameters -/

section Assoc

variable {Lib Temp Dist Mats Vol : Type} [DecidableEq Temp]
variable (o : AssocOps Lib Temp Dist Mats Vol)

theorem assoc_flag_run (s : AssocSt Lib Temp Mats Vol) (es : List (AEvent Lib Temp Dist)) :
    (es.foldl (AssocSt.step o) s).flag = s.flag := by
  induction es generalizing s with
  | nil => rfl
  | cons e es ih =>
    rw [List.foldl_cons, ih]
    cases e with
    | eval t d =>
      show (s.eval o t d).1.flag = s.flag
      unfold AssocSt.eval
      split
      · split
        · split <;> rfl
        · rfl
      · rfl
    | update f => rfl
    | refresh =>
      show (s.refresh o).flag = s.flag
      unfold AssocSt.refresh
      split <;> rfl

/-- **C28** (what holds): if association was active when the object was built and still is, an
evaluation after a refresh uses the new energies, and the new bonding volumes too provided they are
given directly or the temperature is not the one evaluated last.  Missing: `c28_violated_volume` and
`c28_violated_switched_on`. -/
theorem c28_partial (sites : Bool) (lib : Lib) (es : List (AEvent Lib Temp Dist)) (t : Temp) (d : Dist)
    (hb : (AssocSt.init o sites lib).flag = true) :
    let s := es.foldl (AssocSt.step o) (AssocSt.init o sites lib)
    (AssocSt.init o sites s.lib).flag = true → (o.useRc (o.mats s.lib) = true → s.T ≠ some t) →
      ((s.refresh o).eval o t d).2 = ((AssocSt.init o sites s.lib).eval o t d).2 := by
  intro s hf hT
  have hs : s.flag = true := (assoc_flag_run o _ es).trans hb
  unfold AssocSt.eval
  rw [hf]
  unfold AssocSt.refresh
  rw [if_pos hs]
  by_cases hrc : o.useRc (o.mats s.lib)
  · simp [hs, hrc, hT hrc, AssocSt.init]
  · simp [hs, hrc, AssocSt.init]

/-- **C28** (what holds): the energies used after a refresh are always the new ones when association
was active at the start. -/
theorem c28_energies (sites : Bool) (lib : Lib) (es : List (AEvent Lib Temp Dist)) (t : Temp) (d : Dist)
    (hb : (AssocSt.init o sites lib).flag = true) :
    let s := es.foldl (AssocSt.step o) (AssocSt.init o sites lib)
    ((s.refresh o).eval o t d).2.map Prod.fst = some (o.mats s.lib) := by
  intro s
  have hs : s.flag = true := (assoc_flag_run o _ es).trans hb
  unfold AssocSt.eval AssocSt.refresh
  rw [if_pos hs]
  simp only [hs, if_true]
  split
  · split <;> rfl
  · rfl

/-- **C28** is violated, general form: with cutoff distances, an evaluation, a change, a refresh and a
second evaluation at the same temperature use the bonding volume from before the change, for the
square-well source as well, whose own arrays are up to date (C27). -/
theorem c28_stale (sites : Bool) (lib : Lib) (f : Lib → Lib) (t : Temp) (d d' : Dist)
    (hb : (AssocSt.init o sites lib).flag = true) (h1 : o.useRc (o.mats lib) = true)
    (h2 : o.useRc (o.mats (f lib)) = true) :
    (((((AssocSt.init o sites lib).step o (.eval t d)).step o (.update f)).refresh o).eval o t d').2 =
      some (o.mats (f lib), some (o.vol t d (o.mats lib))) := by
  simp only [AssocSt.init] at hb
  simp [AssocSt.step, AssocSt.eval, AssocSt.refresh, AssocSt.init, hb, h1, h2]

/-- **C28** is violated, general form: an object built with all association energies zero never has an
association contribution, whatever is changed later. -/
theorem c28_never_active (sites : Bool) (lib : Lib) (h : o.zero (o.mats lib) = true)
    (es : List (AEvent Lib Temp Dist)) (t : Temp) (d : Dist) :
    ((es.foldl (AssocSt.step o) (AssocSt.init o sites lib)).eval o t d).2 = none := by
  have : (es.foldl (AssocSt.step o) (AssocSt.init o sites lib)).flag = false := by
    rw [assoc_flag_run]; simp [AssocSt.init, h]
  unfold AssocSt.eval
  simp [this]

end Assoc

/-- One kind of site with energy `ε` and cutoff distance `rc` (the library): the bonding volume is the
one computed by the code, for a site at a quarter of the diameter from the centre. -/
noncomputable def oneSiteOps : AssocOps (ℝ × ℝ) ℕ ℝ (ℝ × ℝ) ℝ where
  mats := id
  zero := fun p => decide (p.1 = 0)
  useRc := fun p => decide (p.2 ≠ 0)
  vol := fun _ d p => Verif.Assoc.bondVolEntry (1 / 4) d p.2 none

/-- **C28** is violated: after the cutoff distance of a site is raised from 1/2 (sites just touching,
no bonding volume) to 3/5, the contribution at the temperature evaluated last is still computed with
bonding volume zero, while a newly built object uses a positive volume. -/
theorem c28_violated_volume :
    (((((AssocSt.init oneSiteOps true (1000, 1 / 2)).step oneSiteOps (.eval 300 1)).step oneSiteOps
        (.update fun p => (p.1, 3 / 5))).refresh oneSiteOps).eval oneSiteOps 300 1).2 = some ((1000, 3 / 5), some 0) ∧
      ∃ v, ((AssocSt.init oneSiteOps true (1000, 3 / 5)).eval oneSiteOps 300 1).2 = some ((1000, 3 / 5), some v) ∧
        0 < v := by
  constructor
  · have h := c28_stale oneSiteOps true (1000, 1 / 2) (fun p => (p.1, 3 / 5)) 300 1 1
      (by simp [AssocSt.init, oneSiteOps]) (by simp [oneSiteOps]) (by simp [oneSiteOps])
    rw [h]
    have hz : oneSiteOps.vol 300 1 (oneSiteOps.mats (1000, 1 / 2)) = 0 := by
      have := c64_contact (rc := 1 / 2) (rd := 1 / 4) (by norm_num)
      rw [show (1 / 2 + 2 * (1 / 4) : ℝ) = 1 by norm_num] at this
      show Verif.Assoc.bondVolEntry (1 / 4) 1 (1 / 2) none = 0
      unfold Verif.Assoc.bondVolEntry Verif.Assoc.siteDist
      rw [if_pos (by norm_num), mul_one, this]
    rw [hz]
    rfl
  · refine ⟨Verif.Assoc.bondVolEntry (1 / 4) 1 (3 / 5) none, ?_, ?_⟩
    · simp [AssocSt.eval, AssocSt.init, oneSiteOps]
    · exact (c64_default (by norm_num) (by norm_num) none (.inl rfl)).1.2 (by norm_num)

/-- **C28** is violated: an association energy that was zero when the object was built is fitted, the
contribution is still missing, while a newly built object has one. -/
theorem c28_violated_switched_on :
    ((((AssocSt.init oneSiteOps true (0, 1 / 2)).step oneSiteOps (.update fun p => (1000, p.2))).refresh oneSiteOps).eval
        oneSiteOps 300 1).2 = none ∧
      ((AssocSt.init oneSiteOps true (1000, 1 / 2)).eval oneSiteOps 300 1).2 ≠ none := by
  constructor
  · exact c28_never_active oneSiteOps true (0, 1 / 2) (by simp [oneSiteOps])
      [.update fun p => (1000, p.2), .refresh] 300 1
  · simp [AssocSt.eval, AssocSt.init, oneSiteOps]

end Verif.Props
