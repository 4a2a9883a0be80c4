import Verif.Proofs.CalcTypes
import Mathlib.Tactic.NormNum
import Mathlib.Tactic.Positivity
import Mathlib.Tactic.Linarith
import Mathlib.Tactic.Tauto

/-!
# C35, C37, C71: points of a calculation, isolation of failing points, activity-coefficient modes
-/

namespace Verif.Props
open Verif Verif.Toolbox Verif.Parallel Verif.CalcTypes Verif.Spec

/-! ## C71: what every point is given -/

/-- The value of input `k` at point `i` of `n`: what the user gave, or the documented default. -/
def Supplied (given : Key → Option (Arg Row)) (k : Key) (dflt : Row) (n i : Nat) (r : Row) : Prop :=
  match given k with
  | none => r = dflt
  | some a => ∃ l, Broadcast n a l ∧ l[i]? = some r

/-- What a composition input means: a list of compositions is itself, a flat list of numbers is one
composition. -/
inductive Compositions : Arg Row → Arg Row → Prop
  | rows (l : List Num) (r : List Row) : Compositions (.arr (.comp l :: r)) (.arr (.comp l :: r))
  | single (v : Num) (vs : List Num) :
      Compositions (.arr ((v :: vs).map .num)) (.arr [.comp (v :: vs)])

/-- The inputs after the composition under `c` has been read that way. -/
def ReadAs (c : Key) (given given' : Key → Option (Arg Row)) : Prop :=
  (∀ k, k ≠ c → given' k = given k) ∧ Option.Rel Compositions (given c) (given' c)

theorem flatten_nums (vs : List Num) : flatten (vs.map .num) = .ok vs := by
  induction vs with
  | nil => rfl
  | cons v vs ih => simp [flatten, ih]

theorem flatten_ok (l : List Row) (vs : List Num) (h : flatten l = .ok vs) : l = vs.map .num := by
  induction l generalizing vs with
  | nil => cases h; rfl
  | cons r l ih =>
    cases r with
    | comp c => cases h
    | num v =>
      unfold flatten at h
      cases hf : flatten l with
      | error e => rw [hf] at h; cases h
      | ok w => rw [hf] at h; cases h; simp [ih w hf]

theorem wrapOne_iff (a a' : Arg Row) : wrapOne a = .ok a' ↔ Compositions a a' := by
  constructor
  · intro h
    match a, h with
    | .arr (.comp l :: r), h => cases h; exact .rows l r
    | .arr (.num v :: r), h =>
      unfold wrapOne at h
      cases hf : flatten (.num v :: r) with
      | error e => simp only [hf] at h; cases h
      | ok w =>
        simp only [hf] at h
        cases h
        have := flatten_ok _ _ hf
        cases w with
        | nil => cases this
        | cons w ws => rw [this]; exact .single w ws
  · intro h
    cases h with
    | rows l r => rfl
    | single v vs =>
      have := flatten_nums (v :: vs)
      simp only [List.map_cons] at this
      simp [wrapOne, this]

theorem wrapComp_reads (sys sys' : Sys) (c : Key) (h : wrapComp sys c = .ok sys') :
    ReadAs c sys.get? sys'.get? := by
  unfold wrapComp at h
  cases hg : sys.get? c with
  | none =>
    simp only [hg] at h
    cases h
    exact ⟨fun _ _ => rfl, by rw [hg]; exact .none⟩
  | some a =>
    simp only [hg] at h
    cases hw : wrapOne a with
    | error e => simp only [hw] at h; cases h
    | ok a' =>
      simp only [hw] at h
      cases h
      refine ⟨fun k hk => PyDict.get?_set_ne _ _ (fun e => hk e.symm), ?_⟩
      rw [hg, PyDict.get?_set_self]
      exact .some ((wrapOne_iff a a').mp hw)

theorem wrapComp_total (sys : Sys) (c : Key) (g' : Key → Option (Arg Row))
    (h : ReadAs c sys.get? g') : ∃ sys', wrapComp sys c = .ok sys' ∧ sys'.get? = g' := by
  obtain ⟨h1, h2⟩ := h
  unfold wrapComp
  cases hg : sys.get? c with
  | none =>
    rw [hg] at h2
    cases hc : g' c with
    | some a => rw [hc] at h2; cases h2
    | none =>
      refine ⟨sys, rfl, ?_⟩
      funext k
      by_cases hk : k = c
      · subst hk; rw [hg, hc]
      · exact (h1 k hk).symm
  | some a =>
    rw [hg] at h2
    cases hc : g' c with
    | none => rw [hc] at h2; cases h2
    | some a' =>
      rw [hc] at h2
      cases h2 with
      | some h3 =>
        refine ⟨sys.set c a', by simp [(wrapOne_iff a a').mpr h3], ?_⟩
        funext k
        by_cases hk : k = c
        · subst hk; rw [PyDict.get?_set_self, hc]
        · rw [PyDict.get?_set_ne _ _ (fun e => hk e.symm), h1 k hk]

/-- An array of rows that `checkRows` accepts has rows of one shape. -/
theorem even_iff (l : List Row) : even l = true ↔ ∀ r ∈ l, ∀ s ∈ l, r.size = s.size := by
  cases l with
  | nil => simp [even]
  | cons a l =>
    simp only [even, List.all_eq_true, beq_iff_eq]
    constructor
    · intro h r hr s hs
      have key : ∀ x ∈ a :: l, x.size = a.size := by
        intro x hx
        rcases List.mem_cons.mp hx with rfl | hx
        · rfl
        · exact h x hx
      rw [key r hr, key s hs]
    · intro h x hx
      exact h x (List.mem_cons_of_mem _ hx) a List.mem_cons_self

theorem checkRows_ok {sys : Sys} {keys : List Key} {lx : Option Nat} {th : PyDict Key (List Row)}
    (h : checkRows sys keys lx = .ok th) :
    checkLengthDict sys keys lx = .ok th ∧ ∀ p ∈ th.entries, even p.2 = true := by
  unfold checkRows at h
  cases hc : checkLengthDict sys keys lx with
  | error e => simp only [hc] at h; cases h
  | ok t =>
    simp only [hc] at h
    split at h
    · rename_i he
      cases h
      exact ⟨rfl, by simpa using he⟩
    · cases h

theorem checkRows_error {sys : Sys} {keys : List Key} {lx : Option Nat} {e : PyErr}
    (h : checkRows sys keys lx = .error e) : e = .valueError := by
  unfold checkRows at h
  cases hc : checkLengthDict sys keys lx with
  | error e' => simp only [hc] at h; cases h; exact ((c01_rejected _ _ _ _).mp hc).1
  | ok t =>
    simp only [hc] at h
    split at h
    · cases h
    · cases h; rfl

/-- The pipeline shared by the calculation types: length check, defaults, points. -/
theorem pipeline (sys : Sys) (ck dk pk : List Key) (dfl : List (Arg Row)) (th : PyDict Key (List Row))
    (n : Nat) (d : Sys) (pts : List (List Row)) (hdk : dk.Nodup)
    (h1 : checkRows sys ck none = .ok th) (h2 : firstLen th = .ok n)
    (h3 : withDefaults (asArgs th) dk dfl n = .ok d) (h4 : points d pk n = .ok pts)
    (rowDef : Key → Row)
    (hdef : ∀ i (hi : i < dk.length) (hv : i < dfl.length),
      defaultOver (some n) dfl[i] = .arr (List.replicate n (rowDef dk[i])))
    (hsub : ∀ k ∈ pk, k ∈ ck ∧ (k ∈ dk ∨ ∃ a, sys.get? k = some a)) :
    IsPointCount sys.get? ck none n ∧ pts.length = n ∧ ∀ i < n, ∃ row, pts[i]? = some row ∧
      row.length = pk.length ∧ ∀ (j : Nat) (k : Key), pk[j]? = some k → ∃ r, row[j]? = some r ∧
        Supplied sys.get? k (rowDef k) n i r := by
  obtain ⟨c1, c2, c3⟩ := checked sys ck th n (checkRows_ok h1).1 h2
  obtain ⟨w0, w1, w2, -⟩ := withDefaults_get _ _ _ _ _ (asArgs_WF _ (checkLengthDict_WF _ _ _ _ (checkRows_ok h1).1))
    hdk h3
  obtain ⟨p1, p2⟩ := points_ok _ _ _ _ h4
  refine ⟨c1, p1, ?_⟩
  intro i hi
  obtain ⟨row, r1, r2, r3⟩ := p2 i hi
  refine ⟨row, r1, r2, ?_⟩
  intro j k hj
  obtain ⟨r, hr, hat⟩ := r3 j k hj
  refine ⟨r, hr, ?_⟩
  have hk : k ∈ pk := List.mem_of_getElem? hj
  obtain ⟨hkc, hkd⟩ := hsub k hk
  unfold Supplied
  cases hg : sys.get? k with
  | some a =>
    obtain ⟨l, hl, hlen⟩ := c3 k hkc a hg
    have hd : d.get? k = some (.arr l) := w1 k _ (by rw [get?_asArgs, hl]; rfl)
    obtain ⟨-, a', ha', hb⟩ := (c2 k l).mp hl
    rw [hg] at ha'
    cases ha'
    exact ⟨l, hb, (at_arr d k i l hd r).mp hat⟩
  | none =>
    rcases hkd with hkd | ⟨a, ha⟩
    · obtain ⟨m, hm, rfl⟩ := List.getElem_of_mem hkd
      have hth : th.get? dk[m] = none := by
        cases ht : th.get? dk[m] with
        | none => rfl
        | some l => obtain ⟨-, a, ha, -⟩ := (c2 _ _).mp ht; rw [hg] at ha; cases ha
      have hd := w2 m hm (by omega) (by rw [get?_asArgs, hth]; rfl)
      rw [hdef m hm (by omega)] at hd
      have := (at_arr d _ i _ hd r).mp hat
      rw [List.getElem?_replicate] at this
      simp only [hi, if_true, Option.some.injEq] at this
      exact this.symm
    · rw [hg] at ha; cases ha

/-- **C71, flash.**  If `flash` accepts its input, the mixture is binary, there are as many points as
the longest of the given lists, and point `i` has the user's temperature and pressure, or 298.15 K and
101325 Pa for the one that was left out. -/
theorem c71_flash (ncomp : Nat) (sys : Sys) (pts : List (List Row))
    (h : flashPoints ncomp sys = .ok pts) :
    ncomp = 2 ∧ ∃ n, IsPointCount sys.get? [.Tlist, .Plist] none n ∧ pts.length = n ∧
      ∀ i < n, ∃ t p, pts[i]? = some [t, p] ∧
        Supplied sys.get? .Tlist (.num (some (29815 / 100))) n i t ∧
        Supplied sys.get? .Plist (.num (some 101325)) n i p := by
  unfold flashPoints at h
  simp only [bind, Except.bind] at h
  cases h1 : checkRows sys [.Tlist, .Plist] none with
  | error e => simp only [h1] at h; cases h
  | ok th =>
    simp only [h1] at h
    cases h2 : firstLen th with
    | error e => simp only [h2] at h; cases h
    | ok n =>
      simp only [h2] at h
      cases h3 : withDefaults (asArgs th) [.Tlist, .Plist]
          [.scalar (.num (some stdT)), .scalar (.num (some stdP))] n with
      | error e => simp only [h3] at h; cases h
      | ok d =>
        simp only [h3] at h
        by_cases hc : ncomp = 2
        · simp only [hc, ne_eq, not_true, if_false] at h
          refine ⟨hc, ?_⟩
          obtain ⟨p1, p2, p3⟩ := pipeline sys [.Tlist, .Plist] [.Tlist, .Plist] [.Tlist, .Plist] _ th n d
            pts (by decide) h1 h2 h3 h
            (fun k => if k = .Tlist then .num (some stdT) else .num (some stdP)) (by
              intro i hi hv
              match i, hi with
              | 0, _ => rfl
              | 1, _ => rfl) (fun k hk => ⟨hk, Or.inl hk⟩)
          refine ⟨n, p1, p2, ?_⟩
          intro i hi
          obtain ⟨row, r1, r2, r3⟩ := p3 i hi
          obtain ⟨t, ht, hts⟩ := r3 0 .Tlist rfl
          obtain ⟨p, hp, hps⟩ := r3 1 .Plist rfl
          match row, r2, ht, hp with
          | [t', p'], _, ht, hp =>
            simp at ht hp
            subst ht; subst hp
            exact ⟨t', p', r1, hts, hps⟩
        · simp only [hc, ne_eq, not_false_eq_true, if_true] at h; cases h

/-- **C71, liquid and vapor properties** (`c` is the composition list of the phase).  If the input is
accepted, a mixture was given its compositions, and point `i` has the user's pressure, temperature and
composition, with 101325 Pa, 298.15 K and the pure substance for what was left out. -/
theorem c71_properties (c : Key) (hcT : c ≠ .Tlist) (hcP : c ≠ .Plist) (ncomp : Nat) (sys : Sys)
    (pts : List (List Row)) (h : propertyPoints c ncomp sys = .ok pts) :
    (1 < ncomp → sys.get? c ≠ none) ∧
    ∃ given, ReadAs c sys.get? given ∧ ∃ n, IsPointCount given [.Tlist, c, .Plist] none n ∧
      pts.length = n ∧ ∀ i < n, ∃ p t x, pts[i]? = some [p, t, x] ∧
        Supplied given .Plist (.num (some 101325)) n i p ∧
        Supplied given .Tlist (.num (some (29815 / 100))) n i t ∧
        Supplied given c (.comp [some 1]) n i x := by
  unfold propertyPoints at h
  simp only [bind, Except.bind] at h
  cases h0 : wrapComp sys c with
  | error e => simp only [h0] at h; cases h
  | ok s' =>
    simp only [h0] at h
    have hread := wrapComp_reads _ _ _ h0
    cases h1 : checkRows s' [.Tlist, c, .Plist] none with
    | error e => simp only [h1] at h; cases h
    | ok th =>
      simp only [h1] at h
      cases h2 : firstLen th with
      | error e => simp only [h2] at h; cases h
      | ok n =>
        simp only [h2] at h
        by_cases hm : (!th.contains c && decide (1 < ncomp)) = true
        · simp only [hm, if_true] at h; cases h
        · simp only [hm, if_false, Bool.false_eq_true] at h
          cases h3 : withDefaults (asArgs th) [.Tlist, c, .Plist]
              [.scalar (.num (some stdT)), onesDefault n, .scalar (.num (some stdP))] n with
          | error e => simp only [h3] at h; cases h
          | ok d =>
            simp only [h3] at h
            have hnd : [Key.Tlist, c, .Plist].Nodup := by
              simp [hcT.symm, hcP]
            obtain ⟨c1, c2, c3⟩ := checked s' _ th n (checkRows_ok h1).1 h2
            obtain ⟨p1, p2, p3⟩ := pipeline s' [.Tlist, c, .Plist] [.Tlist, c, .Plist] [.Plist, .Tlist, c]
              _ th n d pts hnd h1 h2 h3 h
              (fun k => if k = c then .comp [some 1] else if k = .Tlist then .num (some stdT)
                else .num (some stdP)) (by
                intro i hi hv
                match i, hi with
                | 0, _ => simp [defaultOver, hcT.symm]
                | 1, _ => simp [defaultOver, onesDefault]
                | 2, _ => simp [defaultOver, hcP.symm]) (by
                intro k hk
                have : k ∈ [Key.Tlist, c, .Plist] := by
                  simp only [List.mem_cons, List.not_mem_nil, or_false] at hk ⊢
                  tauto
                exact ⟨this, Or.inl this⟩)
            refine ⟨?_, s'.get?, hread, n, p1, p2, ?_⟩
            · intro hn hnone
              have h5 : s'.get? c = none := by
                have := hread.2
                rw [hnone] at this
                cases hs : s'.get? c with
                | none => rfl
                | some a => rw [hs] at this; cases this
              have h6 : th.contains c = false := by
                cases ht : th.get? c with
                | none => simp [PyDict.contains, ht]
                | some l =>
                  obtain ⟨-, a, ha, -⟩ := (c2 _ _).mp ht
                  rw [h5] at ha; cases ha
              simp [h6, hn] at hm
            · intro i hi
              obtain ⟨row, r1, r2, r3⟩ := p3 i hi
              obtain ⟨p, hp, hps⟩ := r3 0 .Plist rfl
              obtain ⟨t, ht, hts⟩ := r3 1 .Tlist rfl
              obtain ⟨x, hx, hxs⟩ := r3 2 c rfl
              match row, r2, ht, hp, hx with
              | [p', t', x'], _, ht, hp, hx =>
                simp at ht hp hx
                subst ht; subst hp; subst hx
                refine ⟨p', t', x', r1, ?_, ?_, ?_⟩
                · simpa [hcP.symm, stdP] using hps
                · simpa [hcT.symm, stdT] using hts
                · simpa using hxs

/-- **C71, acceptance.**  For a binary mixture, `flash` accepts temperatures and pressures whenever at
least one of them is given and each has one value or one per point. -/
theorem c71_flash_accepts (sys : Sys) (n : Nat)
    (hn : IsPointCount sys.get? [.Tlist, .Plist] none n)
    (hfit : ∀ k ∈ [Key.Tlist, .Plist], ∀ a, sys.get? k = some a → Fits n a)
    (hnum : ∀ k ∈ [Key.Tlist, .Plist], ∀ l, sys.get? k = some (.arr l) → ∀ r ∈ l, ∃ v, r = .num v) :
    ∃ pts, flashPoints 2 sys = .ok pts := by
  cases h1 : checkRows sys [.Tlist, .Plist] none with
  | error e =>
    exfalso
    unfold checkRows at h1
    cases h1' : checkLengthDict sys [.Tlist, .Plist] none with
    | ok th =>
      simp only [h1'] at h1
      split at h1
      · cases h1
      · rename_i he
        apply he
        obtain ⟨m, b1, b2, b3⟩ := c01_accepted _ _ _ _ h1'
        rw [List.all_eq_true]
        rintro ⟨k, l⟩ hp
        obtain ⟨hk, a, ha, hb⟩ := (b2 k l).mp
          ((PyDict.mem_entries_iff _ (checkLengthDict_WF _ _ _ _ h1') _ _).mp hp)
        rw [even_iff]
        cases hb with
        | scalar v => intro r hr s hs; rw [List.eq_of_mem_replicate hr, List.eq_of_mem_replicate hs]
        | single v => intro r hr s hs; rw [List.eq_of_mem_replicate hr, List.eq_of_mem_replicate hs]
        | full l h _ =>
          intro r hr s hs
          obtain ⟨v, rfl⟩ := hnum k hk _ ha r hr
          obtain ⟨w, rfl⟩ := hnum k hk _ ha s hs
          rfl
    | error e =>
    simp only [h1'] at h1
    cases h1
    rcases ((c01_rejected _ _ _ _).mp h1').2 with ⟨-, hno⟩ | ⟨m, hm, k, hk, a, ha, hf⟩
    · obtain ⟨⟨k, hk, a, ha, -⟩, -⟩ := hn
      rw [hno k hk] at ha; cases ha
    · rw [c01_pointCount_unique _ _ _ _ _ hm hn] at hf
      exact hf (hfit k hk a ha)
  | ok th =>
    obtain ⟨m, b1, b2, b3⟩ := c01_accepted _ _ _ _ (checkRows_ok h1).1
    have hmn := c01_pointCount_unique _ _ _ _ _ b1 hn
    subst hmn
    obtain ⟨⟨k, hk, a, ha, -⟩, -⟩ := hn
    obtain ⟨l, hl, -⟩ := b3 k hk a ha
    obtain ⟨n', h2⟩ := firstLen_total th k l hl
    obtain ⟨c1, c2, c3⟩ := checked _ _ _ _ (checkRows_ok h1).1 h2
    obtain ⟨d, h3⟩ := withDefaults_total (asArgs th) [.Tlist, .Plist]
      [.scalar (.num (some stdT)), .scalar (.num (some stdP))] n' rfl
    obtain ⟨w0, w1, w2, -⟩ := withDefaults_get _ _ _ _ _
      (asArgs_WF _ (checkLengthDict_WF _ _ _ _ (checkRows_ok h1).1)) (by decide) h3
    have hall : ∀ k ∈ [Key.Tlist, .Plist], ∃ l, d.get? k = some (.arr l) ∧ l.length = n' := by
      intro k hk
      cases ht : th.get? k with
      | some l =>
        refine ⟨l, w1 k _ (by rw [get?_asArgs, ht]; rfl), ?_⟩
        obtain ⟨-, a, ha, hb⟩ := (c2 k l).mp ht
        exact Broadcast.len hb
      | none =>
        have hn' : (asArgs th).get? k = none := by rw [get?_asArgs, ht]; rfl
        obtain ⟨i, hi, rfl⟩ := List.getElem_of_mem hk
        match i, hi, hn' with
        | 0, _, hn' =>
          exact ⟨_, w2 0 (by decide) (by decide) hn', by simp⟩
        | 1, _, hn' =>
          exact ⟨_, w2 1 (by decide) (by decide) hn', by simp⟩
    obtain ⟨pts, h4⟩ := points_total d [.Tlist, .Plist] n' hall
    refine ⟨pts, ?_⟩
    simp only [flashPoints, bind, Except.bind, h1, h2, h3, h4]
    rfl

/-- Non-vacuity: three temperatures, no pressure. -/
example : flashPoints 2 ⟨[(.Tlist, .arr [.num (some 300), .num (some 310), .num (some 320)])]⟩ =
    .ok [[.num (some 300), .num (some 101325)], [.num (some 310), .num (some 101325)],
      [.num (some 320), .num (some 101325)]] := by decide +kernel

/-- Non-vacuity: one composition given as a flat list, two pressures. -/
example : propertyPoints .xilist 2 ⟨[(.xilist, .arr [.num (some (1/4)), .num (some (3/4))]),
      (.Plist, .arr [.num (some 1), .num (some 2)])]⟩ =
    .ok [[.num (some 1), .num (some stdT), .comp [some (1/4), some (3/4)]],
      [.num (some 2), .num (some stdT), .comp [some (1/4), some (3/4)]]] := by decide +kernel

/-- **C71 is violated when everything optional is left out.**  Temperature and pressure of a flash,
and all inputs of the property, saturation and solubility calculations of a pure substance are
documented as optional with defaults, but a call that relies on the defaults for all of them is
rejected; `solubility_parameter` even fails on an unassigned variable. -/
theorem c71_violated_all_defaults :
    flashPoints 2 PyDict.empty = .error .valueError ∧
    propertyPoints .xilist 1 PyDict.empty = .error .valueError ∧
    propertyPoints .yilist 1 PyDict.empty = .error .valueError ∧
    saturationPoints PyDict.empty = .error .valueError ∧
    solubilityPoints 1 PyDict.empty = .error .unboundLocal := by decide +kernel

/-- **C71 is violated by `saturation_properties` without temperatures**: the default temperature is
one value, and is indexed for every composition. -/
theorem c71_violated_saturation :
    saturationPoints ⟨[(.xilist, .arr [.comp [some 1, some 0], .comp [some 0, some 1]])]⟩
      = .error .indexError := by decide +kernel

/-- **C71, saturation properties** with temperatures given: point `i` has the user's temperature and
composition, the pure substance when no composition was given. -/
theorem c71_saturation (sys : Sys) (pts : List (List Row)) (hT : sys.get? .Tlist ≠ none)
    (h : saturationPoints sys = .ok pts) :
    ∃ given, ReadAs .xilist sys.get? given ∧ ∃ n, IsPointCount given [.Tlist, .xilist] none n ∧
      pts.length = n ∧ ∀ i < n, ∃ t x, pts[i]? = some [t, x] ∧
        Supplied given .Tlist (.num (some (29815 / 100))) n i t ∧
        Supplied given .xilist (.comp [some 1]) n i x := by
  unfold saturationPoints at h
  simp only [bind, Except.bind] at h
  cases h0 : wrapComp sys .xilist with
  | error e => simp only [h0] at h; cases h
  | ok s' =>
    simp only [h0] at h
    have hread := wrapComp_reads _ _ _ h0
    cases h1 : checkRows s' [.Tlist, .xilist] none with
    | error e => simp only [h1] at h; cases h
    | ok th =>
      simp only [h1] at h
      have hT' : s'.get? .Tlist ≠ none := by rw [hread.1 .Tlist (by decide)]; exact hT
      cases h2' : firstLen th with
      | error e =>
        have hemp : th.get? .Tlist = none := by
          unfold firstLen at h2'
          split at h2'
          · rename_i he; simp [PyDict.get?, he, PyDict.lookupL]
          · cases h2'
        have hc : th.contains .Tlist = false := by simp [PyDict.contains, hemp]
        simp only [hc, Bool.false_eq_true, if_false] at h
        exfalso
        obtain ⟨a, ha⟩ := Option.ne_none_iff_exists'.1 hT'
        obtain ⟨_, _, _, h3⟩ := c01_accepted s' [.Tlist, .xilist] none th (checkRows_ok h1).1
        obtain ⟨l, hl, -⟩ := h3 .Tlist (by simp) a ha
        rw [hemp] at hl; cases hl
      | ok n =>
        obtain ⟨c1, c2, c3⟩ := checked s' _ th n (checkRows_ok h1).1 h2'
        obtain ⟨a, ha⟩ := Option.ne_none_iff_exists'.1 hT'
        obtain ⟨l, hl, -⟩ := c3 .Tlist (by simp) a ha
        have hc : th.contains .Tlist = true := by simp [PyDict.contains, hl]
        simp only [hc, if_true, h2'] at h
        cases h3 : withDefaults (asArgs th) [.Tlist, .xilist]
            [.scalar (.num (some stdT)), onesDefault n] n with
        | error e => simp only [h3] at h; cases h
        | ok d =>
          simp only [h3] at h
          obtain ⟨p1, p2, p3⟩ := pipeline s' [.Tlist, .xilist] [.Tlist, .xilist] [.Tlist, .xilist]
            _ th n d pts (by decide) h1 h2' h3 h
            (fun k => if k = .Tlist then .num (some stdT) else .comp [some 1]) (by
              intro i hi hv
              match i, hi with
              | 0, _ => rfl
              | 1, _ => rfl) (fun k hk => ⟨hk, Or.inl hk⟩)
          refine ⟨s'.get?, hread, n, p1, p2, ?_⟩
          intro i hi
          obtain ⟨row, r1, r2, r3⟩ := p3 i hi
          obtain ⟨t, ht, hts⟩ := r3 0 .Tlist rfl
          obtain ⟨x, hx, hxs⟩ := r3 1 .xilist rfl
          match row, r2, ht, hx with
          | [t', x'], _, ht, hx =>
            simp at ht hx
            subst ht; subst hx
            exact ⟨t', x', r1, hts, hxs⟩

example : saturationPoints ⟨[(.Tlist, .arr [.num (some 300)]), (.xilist, .arr [.comp [some 1, some 0], .comp [some 0, some 1]])]⟩
    = .ok [[.num (some 300), .comp [some 1, some 0]], [.num (some 300), .comp [some 0, some 1]]] := by
  decide +kernel

/-- Except for the case above, `solubility_parameter` reads its input as `liquid_properties` does. -/
theorem c71_solubility (ncomp : Nat) (sys : Sys)
    (h : ∃ k ∈ [Key.Tlist, .xilist, .Plist], sys.get? k ≠ none) :
    solubilityPoints ncomp sys = propertyPoints .xilist ncomp sys := by
  unfold solubilityPoints propertyPoints
  simp only [bind, Except.bind]
  cases h0 : wrapComp sys .xilist with
  | error e => rfl
  | ok s' =>
    have hread := wrapComp_reads _ _ _ h0
    have hany : [Key.Tlist, .xilist, .Plist].any s'.contains = true := by
      rw [List.any_eq_true]
      obtain ⟨k, hk, hg⟩ := h
      refine ⟨k, hk, ?_⟩
      by_cases hx : k = .xilist
      · subst hx
        have := hread.2
        cases ha : sys.get? .xilist with
        | none => exact absurd ha hg
        | some a =>
          rw [ha] at this
          cases hb : s'.get? .xilist with
          | none => rw [hb] at this; cases this
          | some b => simp [PyDict.contains, hb]
      · have := hread.1 k hx
        cases ha : sys.get? k with
        | none => exact absurd ha hg
        | some a => rw [ha] at this; simp [PyDict.contains, this]
    simp only [hany, if_true]

/-- **C71, verification of an equation of state**: without compositions a binary mixture is
examined at eleven compositions from 0.01 to 0.99, each summing to one; other mixtures need
compositions. -/
theorem c71_verify_grid :
    (∀ r ∈ verifyGrid, ∃ x : ℚ, 1 / 100 ≤ x ∧ x ≤ 99 / 100 ∧ r = .comp [some x, some (1 - x)]) ∧
    verifyGrid.length = 11 ∧ verifyPoints 1 PyDict.empty = .error .valueError ∧
    verifyPoints 3 PyDict.empty = .error .valueError ∧
    verifyPoints 2 PyDict.empty = .ok (verifyGrid.map fun x =>
      [.num (some 101325), .num (some (29815 / 100)), x]) := by
  refine ⟨?_, by decide +kernel, by decide +kernel, by decide +kernel, by decide +kernel⟩
  intro r hr
  simp only [verifyGrid, List.mem_map, List.mem_range] at hr
  obtain ⟨i, hi, rfl⟩ := hr
  refine ⟨_, ?_, ?_, rfl⟩
  · have : (0 : ℚ) ≤ i := by positivity
    linarith [this]
  · have : (i : ℚ) ≤ 10 := by exact_mod_cast Nat.lt_succ_iff.mp hi
    linarith

/-! ## C35: a failing point does not disturb the others -/

/-- A job that reports every failure as a row: it never raises, all its rows have `k` quantities,
and one of them is a number. -/
def Guarded {α : Type} (job : α → Except PyErr Out) (k : Nat) : Prop :=
  ∀ x, ∃ r, job x = .ok r ∧ r.length = k ∧ ∃ v, Cell.scal v ∈ r

theorem guarded_batch {α : Type} (job : α → Except PyErr Out) (k : Nat) (hj : Guarded job k)
    (inputs : List α) (hne : inputs ≠ []) :
    ∃ g : α → Out, (∀ x, job x = .ok (g x) ∧ (g x).length = k) ∧
      serialJob job inputs =
        .ok ((List.range k).map fun b => inputs.filterMap fun x => (g x)[b]?) := by
  choose g hg using hj
  refine ⟨g, fun x => ⟨(hg x).1, (hg x).2.1⟩, ?_⟩
  have hrun : runChunk job inputs = .ok (inputs.map g) := by
    rw [runChunk_ok, List.map_map]
    apply List.map_congr_left
    intro x _
    exact (hg x).1
  unfold serialJob
  rw [hrun]
  simp only [Except.ok.injEq]
  obtain ⟨x0, rest, rfl⟩ := List.exists_cons_of_ne_nil hne
  have hlen : ∀ r' ∈ (x0 :: rest).map g, r'.length = (g x0).length := by
    intro r' hr'
    obtain ⟨y, -, rfl⟩ := List.mem_map.mp hr'
    rw [(hg y).2.1, (hg x0).2.1]
  have hcol : ∀ b, column ((x0 :: rest).map g) b = (x0 :: rest).filterMap fun x => (g x)[b]? := by
    intro b
    unfold column
    rw [List.filterMap_map]
    rfl
  obtain ⟨v, hv⟩ := (hg x0).2.2
  have hx0 := (hg x0).2.1
  rw [List.map_cons] at hlen hcol ⊢
  unfold npTranspose
  simp only
  rw [if_pos hlen]
  cases hr0 : g x0 with
  | nil => rw [hr0] at hv; cases hv
  | cons c cs =>
    simp only
    rw [← hr0, hx0]
    cases hvl : c.vecLen? with
    | none =>
      simp only
      exact List.map_congr_left fun b _ => hcol b
    | some m =>
      simp only
      rw [if_neg]
      · exact List.map_congr_left fun b _ => hcol b
      · intro hall
        have := hall (g x0) (by simp) _ hv
        simp [Cell.vecLen?] at this

/-- **C35, isolation.**  For a guarded job: the batch always completes, entry `i` of every result list
is what the job gives for point `i` alone, and removing a point from the batch removes exactly its
entries. -/
theorem c35_isolated {α : Type} (job : α → Except PyErr Out) (k : Nat) (hj : Guarded job k)
    (inputs : List α) (hne : inputs ≠ []) :
    ∃ cols, serialJob job inputs = .ok cols ∧ cols.length = k ∧
      (∀ b < k, ∃ col, cols[b]? = some col ∧ col.length = inputs.length ∧
        ∀ (i : Nat) (x : α) (r : Out), inputs[i]? = some x → job x = .ok r → col[i]? = r[b]?) ∧
      (∀ j < inputs.length, 1 < inputs.length →
        serialJob job (inputs.eraseIdx j) = .ok (cols.map (·.eraseIdx j))) := by
  obtain ⟨g, hg, hs⟩ := guarded_batch job k hj inputs hne
  have hfm : ∀ (l : List α) (b : Nat) (hb : b < k),
      (l.filterMap fun x => (g x)[b]?) = l.map fun x => (g x)[b]'(by rw [(hg x).2]; exact hb) := by
    intro l b hb
    induction l with
    | nil => rfl
    | cons y l ih =>
      have : (g y)[b]? = some ((g y)[b]'(by rw [(hg y).2]; exact hb)) :=
        List.getElem?_eq_getElem _
      rw [List.filterMap_cons, this, List.map_cons, ih]
  refine ⟨_, hs, by simp, ?_, ?_⟩
  · intro b hb
    refine ⟨_, by rw [List.getElem?_map, List.getElem?_range hb]; rfl, ?_, ?_⟩
    · simp only [hfm inputs b hb]; simp
    · intro i x r hx hr
      rw [(hg x).1] at hr
      cases hr
      simp only [hfm inputs b hb, List.getElem?_map, hx, Option.map_some]
      exact (List.getElem?_eq_getElem _).symm
  · intro j hj' h1
    have hne' : inputs.eraseIdx j ≠ [] := by
      intro he
      have := congrArg List.length he
      rw [List.length_eraseIdx_of_lt hj'] at this
      simp at this
      omega
    obtain ⟨g', hg', hs'⟩ := guarded_batch job k hj (inputs.eraseIdx j) hne'
    have hgg : g' = g := by
      funext x
      have h1 := (hg x).1
      rw [(hg' x).1] at h1
      exact Except.ok.inj h1
    subst hgg
    rw [hs', List.map_map]
    congr 1
    apply List.map_congr_left
    intro b hb
    have hb' : b < k := by simpa using hb
    simp only [Function.comp]
    rw [hfm _ b hb', hfm _ b hb']
    apply List.ext_getElem?
    intro i
    simp only [List.getElem?_map, List.getElem?_eraseIdx]
    split <;> simp

/-- **C35, parallel.**  The pool gives the same result lists, for every chunk size and every order in
which the chunks arrive. -/
theorem c35_parallel {α : Type} (job : α → Except PyErr Out) (k : Nat) (hj : Guarded job k)
    (inputs : List α) (c : Nat) (hc : 0 < c) (σ : List Nat)
    (hσ : Schedule c inputs.length σ) :
    poolJob true job c inputs σ = serialJob job inputs := by
  choose g hg using hj
  refine c05_pool_eq_serial_partial job c hc inputs σ hσ k (inputs.map g) ?_ ?_ ?_
  · rw [List.map_map]
    exact List.map_congr_left fun x _ => (hg x).1
  · intro r hr
    obtain ⟨x, -, rfl⟩ := List.mem_map.mp hr
    exact (hg x).2.1
  · cases inputs with
    | nil => right; left; rfl
    | cons x l =>
      right; right
      intro hall
      obtain ⟨v, hv⟩ := (hg x).2.2
      obtain ⟨m, hm⟩ := hall
      have := hm (g x) (by simp) _ hv
      simp [Cell.vecLen?] at this

/-- **C35, the guarded jobs** report a failing point as NaN with the failure flag 3, whatever the
calculation raises, and report what it returns otherwise. -/
theorem c35_flash {α : Type} (nc : Nat) (core : α → Except PyErr FlashResult) :
    Guarded (flashJob nc core) 5 ∧
    (∀ x e, core x = .error e → flashJob nc core x =
      .ok [.vec (List.replicate nc none), .vec (List.replicate nc none), .scal (some 3),
        .scal (some 3), .scal none]) ∧
    (∀ x r, core x = .ok r → flashJob nc core x =
      .ok [.vec r.xi, .vec r.yi, .scal r.flagv, .scal r.flagl, .scal r.obj]) := by
  refine ⟨fun x => ?_, fun x e h => by simp [flashJob, h, nans, flag3],
    fun x r h => by simp [flashJob, h]⟩
  unfold flashJob
  cases core x with
  | ok r => exact ⟨_, rfl, rfl, r.obj, by simp⟩
  | error e => exact ⟨_, rfl, rfl, none, by simp⟩

theorem c35_saturation {α : Type} (core : α → Except PyErr (Num × Num × Num)) :
    Guarded (saturationJob core) 3 ∧
    (∀ x, ((∃ e, core x = .error e) ∨ ∃ rl rv, core x = .ok (none, rl, rv)) →
      saturationJob core x = .ok [.scal none, .scal none, .scal none]) ∧
    (∀ x p rl rv, core x = .ok (some p, rl, rv) →
      saturationJob core x = .ok [.scal (some p), .scal rl, .scal rv]) := by
  refine ⟨fun x => ?_, ?_, fun x p rl rv h => by simp [saturationJob, h]⟩
  · unfold saturationJob
    match core x with
    | .ok (none, rl, rv) => exact ⟨_, rfl, rfl, none, by simp⟩
    | .ok (some p, rl, rv) => exact ⟨_, rfl, rfl, some p, by simp⟩
    | .error e => exact ⟨_, rfl, rfl, none, by simp⟩
  · rintro x (⟨e, h⟩ | ⟨rl, rv, h⟩) <;> simp [saturationJob, h]

theorem c35_properties {α : Type} (nc : Nat) (core : α → Except PyErr (List Num × Num × Num)) :
    Guarded (propertyJob nc core) 3 ∧
    (∀ x e, core x = .error e → propertyJob nc core x =
      .ok [.scal none, .vec (List.replicate nc none), .scal (some 3)]) ∧
    (∀ x phi rho f, core x = .ok (phi, rho, f) →
      propertyJob nc core x = .ok [.scal rho, .vec phi, .scal f]) := by
  refine ⟨fun x => ?_, fun x e h => by simp [propertyJob, h, nans, flag3],
    fun x phi rho f h => by simp [propertyJob, h]⟩
  unfold propertyJob
  match core x with
  | .ok (phi, rho, f) => exact ⟨_, rfl, rfl, rho, by simp⟩
  | .error e => exact ⟨_, rfl, rfl, none, by simp⟩

theorem c35_solubility {α : Type} (dens : α → Except PyErr (Num × Num))
    (solub : Num → α → Except PyErr Num) :
    Guarded (solubilityJob dens solub) 3 ∧
    (∀ x, ((∃ e, dens x = .error e) ∨ ∃ rho f e, dens x = .ok (rho, f) ∧ solub rho x = .error e) →
      solubilityJob dens solub x = .ok [.scal none, .scal (some 3), .scal none]) ∧
    (∀ x rho f δ, dens x = .ok (rho, f) → solub rho x = .ok δ →
      solubilityJob dens solub x = .ok [.scal rho, .scal f, .scal δ]) := by
  refine ⟨fun x => ?_, ?_, fun x rho f δ h1 h2 => by
    simp [solubilityJob, h1, h2, bind, Except.bind, pure, Except.pure]⟩
  · unfold solubilityJob
    split
    · rename_i rho f δ _; exact ⟨_, rfl, rfl, rho, by simp⟩
    · exact ⟨_, rfl, rfl, none, by simp⟩
  · rintro x (⟨e, h⟩ | ⟨rho, f, e, h1, h2⟩)
    · simp [solubilityJob, h, bind, Except.bind, flag3]
    · simp [solubilityJob, h1, h2, bind, Except.bind, flag3]

/-- **C35 is violated by `verify_eos`**: its job is not guarded, so that one point at which the
equation of state raises makes the whole batch fail, although every other point has a result. -/
theorem c35_violated_verify :
    ∃ dens : Nat → Except PyErr (Num × Num), ∃ tests : ℚ → Nat → Except PyErr (Num × Num × List Num),
      (∀ n ≠ 0, verifyJob dens dens tests n =
        .ok [.scal (some 0), .scal (some 0), .scal (some 0), .vec [some 0, some 0],
          .scal (some 0), .scal (some 0), .scal (some 0), .vec [some 0, some 0]]) ∧
      serialJob (verifyJob dens dens tests) [1, 0, 2] = .error .valueError :=
  ⟨fun n => if n = 0 then .error .valueError else .ok (some 1, some 0),
    fun _ _ => .ok (some 0, some 0, [some 0, some 0]),
    fun n hn => by simp [verifyJob, verifyPhase, hn, bind, Except.bind, pure, Except.pure],
    by decide +kernel⟩

/-- What holds for `verify_eos`: if no point raises, every point gets its own results. -/
theorem c35_verify_partial {α : Type} (densV densL : α → Except PyErr (Num × Num))
    (tests : ℚ → α → Except PyErr (Num × Num × List Num)) (inputs : List α)
    (h : ∀ x ∈ inputs, (∃ r, densV x = .ok r) ∧ (∃ r, densL x = .ok r) ∧
      ∀ rho, ∃ r, tests rho x = .ok r) :
    ∀ x ∈ inputs, ∃ r, verifyJob densV densL tests x = .ok r ∧ r.length = 8 := by
  intro x hx
  obtain ⟨⟨⟨rv, fv⟩, h1⟩, ⟨⟨rl, fl⟩, h2⟩, h3⟩ := h x hx
  have hp : ∀ (dens : α → Except PyErr (Num × Num)) (rho f : Num), dens x = .ok (rho, f) →
      ∃ a, verifyPhase dens tests x = .ok a := by
    intro dens rho f hd
    cases rho with
    | none => exact ⟨_, by simp [verifyPhase, hd, bind, Except.bind, pure, Except.pure]; rfl⟩
    | some q =>
      obtain ⟨⟨r1, r2, lp⟩, ht⟩ := h3 q
      exact ⟨_, by simp [verifyPhase, hd, ht, bind, Except.bind, pure, Except.pure]; rfl⟩
  obtain ⟨⟨a1, a2, a3, a4⟩, ha⟩ := hp densV rv fv h1
  obtain ⟨⟨b1, b2, b3, b4⟩, hb⟩ := hp densL rl fl h2
  exact ⟨_, by simp [verifyJob, ha, hb, bind, Except.bind, pure, Except.pure]; rfl, rfl⟩

/-- The results of the vapor come before those of the liquid, each with its own density. -/
theorem c35_verify_order {α : Type} (densV densL : α → Except PyErr (Num × Num))
    (tests : ℚ → α → Except PyErr (Num × Num × List Num)) (x : α) {rv rl : ℚ} {fv fl v1 v2 l1 l2 : Num}
    {pv pl : List Num} (hv : densV x = .ok (some rv, fv)) (hl : densL x = .ok (some rl, fl))
    (tv : tests rv x = .ok (v1, v2, pv)) (tl : tests rl x = .ok (l1, l2, pl)) :
    verifyJob densV densL tests x =
      .ok [.scal v1, .scal v2, .scal fv, .vec pv, .scal l1, .scal l2, .scal fl, .vec pl] := by
  simp [verifyJob, verifyPhase, hv, hl, tv, tl, bind, Except.bind, pure, Except.pure]

/-- Non-vacuity: a batch of three flashes with a failing one in the middle. -/
example : serialJob (flashJob 2 (fun n : Nat => if n = 1 then .error .valueError else
      .ok ⟨[some 1, some 0], some 1, [some 0, some 1], some 0, some 0⟩)) [0, 1, 2] =
    .ok [[.vec [some 1, some 0], .vec [none, none], .vec [some 1, some 0]],
      [.vec [some 0, some 1], .vec [none, none], .vec [some 0, some 1]],
      [.scal (some 0), .scal (some 3), .scal (some 0)],
      [.scal (some 1), .scal (some 3), .scal (some 1)],
      [.scal (some 0), .scal none, .scal (some 0)]] := by decide +kernel

/-! ## C37: activity coefficients -/

/-- The documented table: with both compositions nothing has to be solved for, with one of them the
other is found at the bubble or dew point, with a pressure alone both are found by a flash. -/
inductive ModeFor (x y p : Prop) : Mode → Prop
  | standard : x → y → ModeFor x y p .standard
  | bubble : x → ¬ y → ModeFor x y p .bubblePoint
  | dew : ¬ x → y → ModeFor x y p .dewPoint
  | flash : ¬ x → ¬ y → p → ModeFor x y p .flash

/-- **C37, the table is a function**: what was supplied determines at most one mode, and there is no
mode exactly when neither a composition nor a pressure was supplied. -/
theorem c37_mode_table (x y p : Bool) :
    (∀ m, mode? x y p = some m ↔ ModeFor (x = true) (y = true) (p = true) m) ∧
    (mode? x y p = none ↔ x = false ∧ y = false ∧ p = false) := by
  constructor
  · intro m
    constructor
    · intro h
      cases x <;> cases y <;> cases p <;> simp [mode?] at h <;> subst h <;>
        first
          | exact .standard (by decide) (by decide)
          | exact .bubble (by decide) (by decide)
          | exact .dew (by decide) (by decide)
          | exact .flash (by decide) (by decide) (by decide)
    · intro h
      cases h with
      | standard h1 h2 => subst h1 h2; cases p <;> rfl
      | bubble h1 h2 => subst h1; cases y <;> cases p <;> first | rfl | exact absurd rfl h2
      | dew h1 h2 => subst h2; cases x <;> cases p <;> first | rfl | exact absurd rfl h1
      | flash h1 h2 h3 =>
        subst h3
        cases x <;> cases y <;> first | rfl | exact absurd rfl h1 | exact absurd rfl h2
  · cases x <;> cases y <;> cases p <;> simp [mode?]

theorem contains_of_reads {c k : Key} {s s' : Sys} (h : ReadAs c s.get? s'.get?) :
    s'.contains k = s.contains k := by
  unfold PyDict.contains
  by_cases hk : k = c
  · subst hk
    have := h.2
    cases ha : s.get? k <;> cases hb : s'.get? k <;> rw [ha, hb] at this <;>
      first
        | rfl
        | cases this
  · rw [h.1 k hk]

/-- The steps of `activity_coefficient` up to the points. -/
theorem activity_steps (ncomp : Nat) (sys : Sys) (pts : List ActPoint)
    (h : activityPoints ncomp sys = .ok pts) :
    ∃ s1 s2 th n m d o, wrapComp sys .xilist = .ok s1 ∧ wrapComp s1 .yilist = .ok s2 ∧
      checkRows s2 [.Tlist, .yilist, .xilist, .Plist] none = .ok th ∧ firstLen th = .ok n ∧
      mode? (th.contains .xilist) (th.contains .yilist) (th.contains .Plist) = some m ∧
      withDefaults (asArgs (guessFromPressure th (some m))) [.Tlist, .yilist, .xilist, .Plist]
        [.scalar (.num (some stdT)), nanDefault ncomp, nanDefault ncomp, .scalar (.num none)] n
        = .ok d ∧
      checkRows s2 [.Pguess, .Pmin, .Pmax] (some n) = .ok o ∧
      runChunk (actPoint d o m) (List.range n) = .ok pts := by
  unfold activityPoints at h
  simp only [bind, Except.bind] at h
  cases h0 : wrapComp sys .xilist with
  | error e => simp only [h0] at h; cases h
  | ok s1 =>
    simp only [h0] at h
    cases h1 : wrapComp s1 .yilist with
    | error e => simp only [h1] at h; cases h
    | ok s2 =>
      simp only [h1] at h
      cases h2 : checkRows s2 [.Tlist, .yilist, .xilist, .Plist] none with
      | error e => simp only [h2] at h; cases h
      | ok th =>
        simp only [h2] at h
        cases h3 : firstLen th with
        | error e => simp only [h3] at h; cases h
        | ok n =>
          simp only [h3] at h
          cases h4 : mode? (th.contains .xilist) (th.contains .yilist) (th.contains .Plist) with
          | none => simp only [h4] at h; cases h
          | some m =>
            simp only [h4] at h
            cases h5 : withDefaults (asArgs (guessFromPressure th (some m)))
                [.Tlist, .yilist, .xilist, .Plist]
                [.scalar (.num (some stdT)), nanDefault ncomp, nanDefault ncomp,
                  .scalar (.num none)] n with
            | error e => simp only [h5] at h; cases h
            | ok d =>
              simp only [h5] at h
              cases h6 : checkRows s2 [.Pguess, .Pmin, .Pmax] (some n) with
              | error e => simp only [h6] at h; cases h
              | ok o =>
                simp only [h6] at h
                exact ⟨s1, s2, th, n, m, d, o, rfl, h1, h2, h3, h4, h5, h6, h⟩

theorem actPoint_ok (d : Sys) (o : PyDict Key (List Row)) (m : Mode) (i : Nat) (p : ActPoint)
    (h : actPoint d o m i = .ok p) :
    p.mode = m ∧ optAt o .Pguess i = .ok p.Pguess ∧ at_ d .Tlist i = .ok p.T ∧
      at_ d .Plist i = .ok p.P ∧ at_ d .xilist i = .ok p.xi ∧ at_ d .yilist i = .ok p.yi := by
  unfold actPoint at h
  simp only [bind, Except.bind] at h
  cases h0 : optAt o .Pguess i with
  | error e => simp only [h0] at h; cases h
  | ok pg =>
    simp only [h0] at h
    cases h1 : optAt o .Pmin i with
    | error e => simp only [h1] at h; cases h
    | ok pmin =>
      simp only [h1] at h
      cases h2 : optAt o .Pmax i with
      | error e => simp only [h2] at h; cases h
      | ok pmax =>
        simp only [h2] at h
        cases h3 : at_ d .Tlist i with
        | error e => simp only [h3] at h; cases h
        | ok T =>
          simp only [h3] at h
          cases h4 : at_ d .Plist i with
          | error e => simp only [h4] at h; cases h
          | ok P =>
            simp only [h4] at h
            cases h5 : at_ d .xilist i with
            | error e => simp only [h5] at h; cases h
            | ok xi =>
              simp only [h5] at h
              cases h6 : at_ d .yilist i with
              | error e => simp only [h6] at h; cases h
              | ok yi =>
                simp only [h6, pure, Except.pure] at h
                cases h
                exact ⟨rfl, rfl, rfl, rfl, rfl, rfl⟩

theorem checked_contains (s : Sys) (keys : List Key) (lx : Option Nat) (th : PyDict Key (List Row))
    (h : checkRows s keys lx = .ok th) (k : Key) (hk : k ∈ keys) :
    th.contains k = s.contains k := by
  obtain ⟨n, -, h2, h3⟩ := c01_accepted _ _ _ _ (checkRows_ok h).1
  unfold PyDict.contains
  cases ha : s.get? k with
  | none =>
    cases ht : th.get? k with
    | none => rfl
    | some l => obtain ⟨-, a, hb, -⟩ := (h2 k l).mp ht; rw [ha] at hb; cases hb
  | some a => obtain ⟨l, hl, -⟩ := h3 k hk a ha; rw [hl]; rfl

/-- **C37, mode from what was supplied.**  Every point of an accepted call is evaluated in the mode
that the table gives for the keyword arguments that were supplied. -/
theorem c37_mode_of_call (ncomp : Nat) (sys : Sys) (pts : List ActPoint)
    (h : activityPoints ncomp sys = .ok pts) :
    ∃ m, ModeFor (sys.get? .xilist ≠ none) (sys.get? .yilist ≠ none) (sys.get? .Plist ≠ none) m ∧
      ∀ p ∈ pts, p.mode = m := by
  obtain ⟨s1, s2, th, n, m, d, o, h0, h1, h2, h3, h4, h5, h6, h7⟩ := activity_steps ncomp sys pts h
  have hk : ∀ k ∈ [Key.Tlist, .yilist, .xilist, .Plist],
      (th.contains k = true) = (sys.get? k ≠ none) := by
    intro k hk
    rw [checked_contains _ _ _ _ h2 k hk, contains_of_reads (wrapComp_reads _ _ _ h1),
      contains_of_reads (wrapComp_reads _ _ _ h0)]
    unfold PyDict.contains
    cases sys.get? k <;> simp
  have hm := ((c37_mode_table _ _ _).1 m).mp h4
  rw [hk .xilist (by decide), hk .yilist (by decide), hk .Plist (by decide)] at hm
  refine ⟨m, hm, ?_⟩
  intro p hp
  obtain ⟨i, hi, rfl⟩ := List.getElem_of_mem hp
  obtain ⟨hlen, hpt⟩ := runChunk_points _ _ _ h7
  have hlen' : pts.length = n := by simpa using hlen
  obtain ⟨b, hb, hact⟩ := hpt i i (List.getElem?_range (by omega))
  rw [List.getElem?_eq_getElem hi] at hb
  cases hb
  exact (actPoint_ok _ _ _ _ _ hact).1

/-- **C37, rejection.**  Without a composition and without a pressure the call is rejected, whatever
else is supplied. -/
theorem c37_rejects (ncomp : Nat) (sys : Sys) (hx : sys.get? .xilist = none)
    (hy : sys.get? .yilist = none) (hp : sys.get? .Plist = none) :
    activityPoints ncomp sys = .error .valueError := by
  unfold activityPoints
  have h0 : wrapComp sys .xilist = .ok sys := by simp [wrapComp, hx]
  have h1 : wrapComp sys .yilist = .ok sys := by simp [wrapComp, hy]
  simp only [bind, Except.bind, h0, h1]
  cases h2 : checkRows sys [.Tlist, .yilist, .xilist, .Plist] none with
  | error e => simp only [checkRows_error h2]
  | ok th =>
    simp only
    obtain ⟨m, ⟨⟨k, hk, a, ha, -⟩, -⟩, b2, b3⟩ := c01_accepted _ _ _ _ (checkRows_ok h2).1
    obtain ⟨l, hl, -⟩ := b3 k hk a ha
    obtain ⟨n, h3⟩ := firstLen_total th k l hl
    have e1 := checked_contains _ _ _ _ h2 .xilist (by decide)
    have e2 := checked_contains _ _ _ _ h2 .yilist (by decide)
    have e3 := checked_contains _ _ _ _ h2 .Plist (by decide)
    simp only [PyDict.contains, hx, hy, hp, Option.isSome_none] at e1 e2 e3
    simp only [h3, PyDict.contains, e1, e2, e3]
    rfl

/-- **C37 is violated: a supplied pressure is never used as the initial guess.**  Although the code
announces it, no point of any accepted call without the separate option `Pguess` gets a guess, in
particular not when a pressure is supplied with one composition. -/
theorem c37_violated_guess (ncomp : Nat) (sys : Sys) (pts : List ActPoint)
    (hg : sys.get? .Pguess = none) (h : activityPoints ncomp sys = .ok pts) :
    ∀ p ∈ pts, p.Pguess = none := by
  obtain ⟨s1, s2, th, n, m, d, o, h0, h1, h2, h3, h4, h5, h6, h7⟩ := activity_steps ncomp sys pts h
  intro p hp
  obtain ⟨i, hi, rfl⟩ := List.getElem_of_mem hp
  obtain ⟨hlen, hpt⟩ := runChunk_points _ _ _ h7
  have hlen' : pts.length = n := by simpa using hlen
  obtain ⟨b, hb, hact⟩ := hpt i i (List.getElem?_range (by omega))
  rw [List.getElem?_eq_getElem hi] at hb
  cases hb
  have hs : s2.get? .Pguess = none := by
    rw [(wrapComp_reads _ _ _ h1).1 .Pguess (by decide),
      (wrapComp_reads _ _ _ h0).1 .Pguess (by decide), hg]
  have ho : o.get? .Pguess = none := by
    have := checked_contains _ _ _ _ h6 .Pguess (by decide)
    simp only [PyDict.contains, hs, Option.isSome_none] at this
    simpa using this
  have := (actPoint_ok _ _ _ _ _ hact).2.1
  simp only [optAt, ho, Except.ok.injEq] at this
  exact this.symm

/-- Non-vacuity of the above: an accepted bubble-point call with a pressure. -/
example : activityPoints 2 ⟨[(.xilist, .arr [.num (some (1/4)), .num (some (3/4))]),
      (.Plist, .scalar (.num (some 101325)))]⟩ =
    .ok [⟨.num (some stdT), .num (some 101325), .comp [some (1/4), some (3/4)], .num none,
      none, none, none, .bubblePoint⟩] := by decide +kernel

/-- What holds: the option `Pguess` reaches every point. -/
theorem c37_guess_partial (ncomp : Nat) (sys : Sys) (pts : List ActPoint) (g : Row)
    (hg : sys.get? .Pguess = some (.scalar g)) (h : activityPoints ncomp sys = .ok pts) :
    ∀ p ∈ pts, p.Pguess = some g := by
  obtain ⟨s1, s2, th, n, m, d, o, h0, h1, h2, h3, h4, h5, h6, h7⟩ := activity_steps ncomp sys pts h
  intro p hp
  obtain ⟨i, hi, rfl⟩ := List.getElem_of_mem hp
  obtain ⟨hlen, hpt⟩ := runChunk_points _ _ _ h7
  have hlen' : pts.length = n := by simpa using hlen
  obtain ⟨b, hb, hact⟩ := hpt i i (List.getElem?_range (by omega))
  rw [List.getElem?_eq_getElem hi] at hb
  cases hb
  have hs : s2.get? .Pguess = some (.scalar g) := by
    rw [(wrapComp_reads _ _ _ h1).1 .Pguess (by decide),
      (wrapComp_reads _ _ _ h0).1 .Pguess (by decide), hg]
  obtain ⟨k, hk, b2, b3⟩ := c01_accepted _ _ _ _ (checkRows_ok h6).1
  simp only [IsPointCount] at hk
  subst hk
  obtain ⟨l, hl, hll⟩ := b3 .Pguess (by decide) _ hs
  obtain ⟨-, a, ha, hbc⟩ := (b2 _ _).mp hl
  rw [hs] at ha
  cases ha
  cases hbc
  have := (actPoint_ok _ _ _ _ _ hact).2.1
  have hin : i < k := by omega
  simp only [optAt, hl, List.getElem?_replicate, hin, if_true, Except.ok.injEq] at this
  exact this.symm

/-- **C37 is violated for more points than components.**  When a composition has to be solved for,
its placeholder has one entry per component but is indexed by point: no call with more points than
components is accepted. -/
theorem c37_violated_points (ncomp : Nat) (sys : Sys) (pts : List ActPoint)
    (hc : sys.get? .xilist = none ∨ sys.get? .yilist = none)
    (h : activityPoints ncomp sys = .ok pts) : pts.length ≤ ncomp := by
  obtain ⟨s1, s2, th, n, m, d, o, h0, h1, h2, h3, h4, h5, h6, h7⟩ := activity_steps ncomp sys pts h
  obtain ⟨hlen, hpt⟩ := runChunk_points _ _ _ h7
  have hlen' : pts.length = n := by simpa using hlen
  rw [hlen']
  by_contra hcon
  have hcn : ncomp < n := by omega
  obtain ⟨b, hb, hact⟩ := hpt ncomp ncomp (by simp [hcn])
  obtain ⟨-, -, -, -, hax, hay⟩ := actPoint_ok _ _ _ _ _ hact
  have hgp : ∀ k, k ≠ .Pguess → (guessFromPressure th (some m)).get? k = th.get? k := by
    intro k hk
    unfold guessFromPressure
    split
    · split
      · exact PyDict.get?_set_ne _ _ (fun e => hk e.symm)
      · rfl
    · split
      · exact PyDict.get?_set_ne _ _ (fun e => hk e.symm)
      · rfl
    · rfl
  have hWF : (guessFromPressure th (some m)).WF := by
    have := checkLengthDict_WF _ _ _ _ (checkRows_ok h2).1
    unfold guessFromPressure
    split
    · split
      · exact PyDict.WF_set _ _ _ this
      · exact this
    · split
      · exact PyDict.WF_set _ _ _ this
      · exact this
    · exact this
  obtain ⟨-, -, w2, -⟩ := withDefaults_get _ _ _ _ _ (asArgs_WF _ hWF) (by decide) h5
  have hmiss : ∀ k ∈ [Key.yilist, .xilist], sys.get? k = none →
      (asArgs (guessFromPressure th (some m))).get? k = none := by
    intro k hk hn
    have h8 : s2.contains k = false := by
      rw [contains_of_reads (wrapComp_reads _ _ _ h1), contains_of_reads (wrapComp_reads _ _ _ h0)]
      simp [PyDict.contains, hn]
    have hk' : k ∈ [Key.Tlist, .yilist, .xilist, .Plist] := by
      simp only [List.mem_cons, List.not_mem_nil, or_false] at hk ⊢; tauto
    have h9 := checked_contains _ _ _ _ h2 k hk'
    rw [h8] at h9
    have hne : k ≠ .Pguess := by
      rintro rfl; simp at hk
    rw [get?_asArgs, hgp k hne]
    unfold PyDict.contains at h9
    cases ht : th.get? k with
    | none => rfl
    | some l => rw [ht] at h9; simp at h9
  rcases hc with hx | hy
  · have hd := w2 2 (by decide) (by simp) (hmiss .xilist (by decide) hx)
    have hd' : d.get? .xilist = some (.arr (List.replicate ncomp (.num none))) := hd
    have := (at_arr d .xilist ncomp _ hd' _).mp hax
    simp at this
  · have hd := w2 1 (by decide) (by simp) (hmiss .yilist (by decide) hy)
    have hd' : d.get? .yilist = some (.arr (List.replicate ncomp (.num none))) := hd
    have := (at_arr d .yilist ncomp _ hd' _).mp hay
    simp at this

/-- Three bubble points of a binary mixture. -/
example : activityPoints 2 ⟨[(.xilist, .arr [.comp [some (1/4), some (3/4)],
      .comp [some (1/2), some (1/2)], .comp [some (3/4), some (1/4)]])]⟩ = .error .indexError := by
  decide +kernel

/-! ## C71: bubble and dew points -/

/-- The value of option `k` at point `i` of `n`: the user's, or none when the option was left out. -/
def OptionAt (given : Key → Option (Arg Row)) (k : Key) (n i : Nat) (r : Option Row) : Prop :=
  match given k with
  | none => r = none
  | some a => ∃ l, Broadcast n a l ∧ r = l[i]? ∧ i < l.length

private theorem defaults_one (d : Sys) (k : Key) (v : Arg Row) (n : Nat) :
    (match setDefaults d (.one k) (.many [v]) (some n) with
      | .error e => .error e
      | .ok out => .ok (d.update out)) = withDefaults d [k] [v] n := rfl

/-- The steps of `bubble_pressure` and `dew_pressure` up to the points. -/
theorem equilibrium_steps (c : Key) (sys : Sys) (pts : List EqPoint)
    (h : equilibriumPoints c sys = .ok pts) :
    sys.contains c = true ∧ ∃ s th n d o, wrapComp sys c = .ok s ∧
      checkRows s [.Tlist, c] none = .ok th ∧ firstLen th = .ok n ∧
      withDefaults (asArgs th) [.Tlist] [.scalar (.num (some stdT))] n = .ok d ∧
      checkRows s [.Pguess, .Pmin, .Pmax] (some n) = .ok o ∧
      runChunk (eqPoint c d o) (List.range n) = .ok pts := by
  unfold equilibriumPoints at h
  cases hc : sys.contains c with
  | false => simp [hc, bind, Except.bind] at h
  | true =>
    simp only [hc, bind, Except.bind, Bool.not_true, Bool.false_eq_true, if_false] at h
    refine ⟨rfl, ?_⟩
    cases h0 : wrapComp sys c with
    | error e => simp only [h0] at h; cases h
    | ok s =>
      simp only [h0] at h
      cases h1 : checkRows s [.Tlist, c] none with
      | error e => simp only [h1] at h; cases h
      | ok th =>
        simp only [h1] at h
        cases h2 : firstLen th with
        | error e => simp only [h2] at h; cases h
        | ok n =>
          simp only [h2] at h
          cases h3 : setDefaults (asArgs th) (.one .Tlist)
              (.many [.scalar (.num (some stdT))]) (some n) with
          | error e => simp only [h3] at h; cases h
          | ok out =>
            simp only [h3] at h
            have hd : withDefaults (asArgs th) [.Tlist] [.scalar (.num (some stdT))] n =
                .ok ((asArgs th).update out) := by
              rw [← defaults_one, h3]
            cases h4 : checkRows s [.Pguess, .Pmin, .Pmax] (some n) with
            | error e => simp only [h4] at h; cases h
            | ok o =>
              simp only [h4] at h
              exact ⟨s, th, n, _, o, rfl, h1, h2, hd, h4, h⟩

theorem eqPoint_ok (c : Key) (d : Sys) (o : PyDict Key (List Row)) (i : Nat) (p : EqPoint)
    (h : eqPoint c d o i = .ok p) :
    optAt o .Pguess i = .ok p.Pguess ∧ optAt o .Pmin i = .ok p.Pmin ∧ optAt o .Pmax i = .ok p.Pmax ∧
      at_ d .Tlist i = .ok p.T ∧ at_ d c i = .ok p.comp := by
  unfold eqPoint at h
  simp only [bind, Except.bind] at h
  cases h0 : optAt o .Pmin i with
  | error e => simp only [h0] at h; cases h
  | ok pmin =>
    simp only [h0] at h
    cases h1 : optAt o .Pmax i with
    | error e => simp only [h1] at h; cases h
    | ok pmax =>
      simp only [h1] at h
      cases h2 : optAt o .Pguess i with
      | error e => simp only [h2] at h; cases h
      | ok pg =>
        simp only [h2] at h
        cases h3 : at_ d .Tlist i with
        | error e => simp only [h3] at h; cases h
        | ok T =>
          simp only [h3] at h
          cases h4 : at_ d c i with
          | error e => simp only [h4] at h; cases h
          | ok x =>
            simp only [h4, pure, Except.pure] at h
            cases h
            exact ⟨rfl, rfl, rfl, rfl, rfl⟩

private theorem option_given (s : Sys) (keys : List Key) (n i : Nat) (o : PyDict Key (List Row))
    (h : checkRows s keys (some n) = .ok o) (k : Key) (hk : k ∈ keys) (r : Option Row)
    (hr : optAt o k i = .ok r) : OptionAt s.get? k n i r := by
  obtain ⟨m, hm, b2, b3⟩ := c01_accepted _ _ _ _ (checkRows_ok h).1
  simp only [IsPointCount] at hm
  subst hm
  unfold OptionAt
  cases hg : s.get? k with
  | none =>
    have ho : o.get? k = none := by
      have := checked_contains _ _ _ _ h k hk
      simp only [PyDict.contains, hg, Option.isSome_none] at this
      simpa using this
    simp only [optAt, ho, Except.ok.injEq] at hr
    exact hr.symm
  | some a =>
    obtain ⟨l, hl, -⟩ := b3 k hk a hg
    obtain ⟨-, a', ha', hb⟩ := (b2 _ _).mp hl
    rw [hg] at ha'
    cases ha'
    refine ⟨l, hb, ?_⟩
    unfold optAt at hr
    rw [hl] at hr
    cases hli : l[i]? with
    | none => simp [hli] at hr
    | some x =>
      simp only [hli, Except.ok.injEq] at hr
      exact ⟨hr.symm, (List.getElem?_eq_some_iff.mp hli).1⟩

/-- **C71, bubble and dew points** (`c` is the composition list of the known phase).  If the input is
accepted, that composition was given; there are as many points as the longest of the temperature and
composition lists; and point `i` has its own composition, the user's temperature or 298.15 K, and its
own pressure guess and limits where the user gave some. -/
theorem c71_equilibrium (c : Key) (hc : c = .xilist ∨ c = .yilist) (sys : Sys) (pts : List EqPoint)
    (h : equilibriumPoints c sys = .ok pts) :
    sys.get? c ≠ none ∧ ∃ given, ReadAs c sys.get? given ∧ ∃ n, IsPointCount given [.Tlist, c] none n ∧
      pts.length = n ∧ ∀ i < n, ∃ p, pts[i]? = some p ∧
        Supplied given .Tlist (.num (some (29815 / 100))) n i p.T ∧
        (∃ a l, given c = some a ∧ Broadcast n a l ∧ l[i]? = some p.comp) ∧
        OptionAt sys.get? .Pguess n i p.Pguess ∧ OptionAt sys.get? .Pmin n i p.Pmin ∧
        OptionAt sys.get? .Pmax n i p.Pmax := by
  obtain ⟨hcon, s, th, n, d, o, h0, h1, h2, h3, h4, h5⟩ := equilibrium_steps c sys pts h
  have hread := wrapComp_reads _ _ _ h0
  have hne : sys.get? c ≠ none := by
    intro e; simp [PyDict.contains, e] at hcon
  have hcne : ∀ k, k = .Pguess ∨ k = .Pmin ∨ k = .Pmax ∨ k = .Tlist → k ≠ c := by
    rintro k hk rfl
    rcases hc with hc | hc <;> subst hc <;> simp at hk
  obtain ⟨c1, c2, c3⟩ := checked s _ th n (checkRows_ok h1).1 h2
  obtain ⟨-, w1, w2, w3⟩ := withDefaults_get _ _ _ _ _ (asArgs_WF _ (checkLengthDict_WF _ _ _ _ (checkRows_ok h1).1))
    (by simp) h3
  obtain ⟨hlen, hpt⟩ := runChunk_points _ _ _ h5
  refine ⟨hne, s.get?, hread, n, c1, by simpa using hlen, ?_⟩
  intro i hi
  obtain ⟨p, hp, hep⟩ := hpt i i (List.getElem?_range hi)
  obtain ⟨e1, e2, e3, e4, e5⟩ := eqPoint_ok _ _ _ _ _ hep
  refine ⟨p, hp, ?_, ?_, ?_, ?_, ?_⟩
  · unfold Supplied
    cases hg : s.get? .Tlist with
    | some a =>
      obtain ⟨l, hl, -⟩ := c3 .Tlist (by simp) a hg
      have hd : d.get? .Tlist = some (.arr l) := w1 _ _ (by rw [get?_asArgs, hl]; rfl)
      obtain ⟨-, a', ha', hb⟩ := (c2 _ l).mp hl
      rw [hg] at ha'
      cases ha'
      exact ⟨l, hb, (at_arr d _ i l hd _).mp e4⟩
    | none =>
      have hth : th.get? .Tlist = none := by
        cases ht : th.get? .Tlist with
        | none => rfl
        | some l => obtain ⟨-, a, ha, -⟩ := (c2 _ _).mp ht; rw [hg] at ha; cases ha
      have hd := w2 0 (by simp) (by simp) (by rw [get?_asArgs]; simp [hth])
      have hd' : d.get? .Tlist = some (.arr (List.replicate n (.num (some stdT)))) := hd
      have := (at_arr d _ i _ hd' _).mp e4
      rw [List.getElem?_replicate] at this
      simp only [hi, if_true, Option.some.injEq] at this
      exact this.symm
  · have hcs := contains_of_reads (k := c) hread
    rw [hcon] at hcs
    cases hg : s.get? c with
    | none => simp [PyDict.contains, hg] at hcs
    | some a =>
      obtain ⟨l, hl, -⟩ := c3 c (by simp) a hg
      have hd : d.get? c = some (.arr l) := w1 _ _ (by rw [get?_asArgs, hl]; rfl)
      obtain ⟨-, a', ha', hb⟩ := (c2 _ l).mp hl
      rw [hg] at ha'
      cases ha'
      exact ⟨a, l, rfl, hb, (at_arr d _ i l hd _).mp e5⟩
  · have := option_given s _ n i o h4 .Pguess (by simp) _ e1
    unfold OptionAt at this ⊢
    rwa [hread.1 _ (hcne .Pguess (by simp))] at this
  · have := option_given s _ n i o h4 .Pmin (by simp) _ e2
    unfold OptionAt at this ⊢
    rwa [hread.1 _ (hcne .Pmin (by simp))] at this
  · have := option_given s _ n i o h4 .Pmax (by simp) _ e3
    unfold OptionAt at this ⊢
    rwa [hread.1 _ (hcne .Pmax (by simp))] at this

/-- **C71, bubble and dew points without a composition.**  The call is rejected, whatever else it is
given. -/
theorem c71_equilibrium_required (c : Key) (sys : Sys) (h : sys.get? c = none) :
    equilibriumPoints c sys = .error .valueError := by
  simp [equilibriumPoints, PyDict.contains, h, bind, Except.bind]
  rfl

/-- **C71, options of a wrong length.**  Two pressure guesses for three points are rejected, and so is
any other list of guesses or limits that has neither one entry nor one per point: an accepted call has
none. -/
theorem c71_equilibrium_options (c : Key) (hc : c = .xilist ∨ c = .yilist) (sys : Sys)
    (pts : List EqPoint) (h : equilibriumPoints c sys = .ok pts) (k : Key)
    (hk : k = .Pguess ∨ k = .Pmin ∨ k = .Pmax) (l : List Row) (hl : sys.get? k = some (.arr l)) :
    l.length = 1 ∨ l.length = pts.length := by
  obtain ⟨-, s, th, n, d, o, h0, h1, h2, h3, h4, h5⟩ := equilibrium_steps c sys pts h
  have hread := wrapComp_reads _ _ _ h0
  have hkc : k ≠ c := by
    rintro rfl
    rcases hc with hc | hc <;> subst hc <;> simp at hk
  have hs : s.get? k = some (.arr l) := by rw [hread.1 k hkc, hl]
  obtain ⟨m, hm, b2, b3⟩ := c01_accepted _ _ _ _ (checkRows_ok h4).1
  simp only [IsPointCount] at hm
  subst hm
  obtain ⟨l', hl', -⟩ := b3 k (by simp; tauto) _ hs
  obtain ⟨-, a, ha, hb⟩ := (b2 _ _).mp hl'
  rw [hs] at ha
  cases ha
  have hlen : pts.length = m := by simpa using (runChunk_points _ _ _ h5).1
  rw [hlen]
  cases hb with
  | single a => left; rfl
  | full l h _ => right; exact h

/-- Two bubble points of a binary mixture with one temperature and two pressure guesses; a composition
given as a flat list is one point at the standard temperature. -/
example : equilibriumPoints .xilist ⟨[(.Tlist, .scalar (.num (some 300))),
      (.xilist, .arr [.comp [some (1/4), some (3/4)], .comp [some (1/2), some (1/2)]]),
      (.Pguess, .arr [.num (some 1000), .num (some 2000)]), (.Pmax, .scalar (.num (some 5000)))]⟩ =
    .ok [⟨.num (some 300), .comp [some (1/4), some (3/4)], some (.num (some 1000)), none,
        some (.num (some 5000))⟩,
      ⟨.num (some 300), .comp [some (1/2), some (1/2)], some (.num (some 2000)), none,
        some (.num (some 5000))⟩] ∧
    equilibriumPoints .yilist ⟨[(.yilist, .arr [.num (some (1/4)), .num (some (3/4))])]⟩ =
    .ok [⟨.num (some stdT), .comp [some (1/4), some (3/4)], none, none, none⟩] ∧
    equilibriumPoints .xilist ⟨[(.Tlist, .arr [.num (some 300), .num (some 310), .num (some 320)]),
      (.xilist, .arr [.comp [some (1/4), some (3/4)]]),
      (.Pguess, .arr [.num (some 1000), .num (some 2000)])]⟩ = .error .valueError := by
  decide +kernel

/-! ## C71: compositions of different lengths -/

private theorem flatten_error (l : List Row) (e : PyErr) (h : flatten l = .error e) : e = .valueError := by
  induction l generalizing e with
  | nil => cases h
  | cons r l ih =>
    cases r with
    | comp c => cases h; rfl
    | num v =>
      unfold flatten at h
      cases hf : flatten l with
      | error e' => rw [hf] at h; cases h; exact ih _ hf
      | ok w => rw [hf] at h; cases h

private theorem checkRows_uneven (sys : Sys) (keys : List Key) (lx : Option Nat) (c : Key) (hk : c ∈ keys)
    (L : List Row) (hL : sys.get? c = some (.arr L)) (r s : Row) (hr : r ∈ L) (hs : s ∈ L)
    (hrs : r.size ≠ s.size) : checkRows sys keys lx = .error .valueError := by
  cases h : checkRows sys keys lx with
  | error e => rw [checkRows_error h]
  | ok th =>
    exfalso
    obtain ⟨h1, h2⟩ := checkRows_ok h
    obtain ⟨n, -, b2, b3⟩ := c01_accepted _ _ _ _ h1
    obtain ⟨l, hl, -⟩ := b3 c hk _ hL
    obtain ⟨-, a, ha, hb⟩ := (b2 _ _).mp hl
    rw [hL] at ha
    cases ha
    have hm := (PyDict.mem_entries_iff _ (checkLengthDict_WF _ _ _ _ h1) _ _).mpr hl
    cases hb with
    | single a =>
      rw [List.mem_singleton] at hr hs
      exact hrs (by rw [hr, hs])
    | full l _ _ => exact hrs ((even_iff _).mp (h2 _ hm) r hr s hs)

private theorem wrapComp_uneven (sys : Sys) (c : Key) (L : List Row) (hL : sys.get? c = some (.arr L))
    (r s : Row) (hr : r ∈ L) (hs : s ∈ L) (hrs : r.size ≠ s.size) :
    wrapComp sys c = .error .valueError ∨ ∃ s', wrapComp sys c = .ok s' ∧ s'.get? c = some (.arr L) := by
  unfold wrapComp
  rw [hL]
  match L, hr with
  | .comp l :: t, _ => right; exact ⟨_, rfl, PyDict.get?_set_self _ _ _⟩
  | .num v :: t, hr =>
    left
    cases hf : flatten (.num v :: t) with
    | error e => simp only [wrapOne, hf, flatten_error _ _ hf]
    | ok w =>
      exfalso
      have := flatten_ok _ _ hf
      rw [this] at hr hs
      obtain ⟨x, -, rfl⟩ := List.mem_map.mp hr
      obtain ⟨y, -, rfl⟩ := List.mem_map.mp hs
      exact hrs rfl

/-- **C71, compositions of different lengths.**  A list of compositions that do not all have the same number of fractions,
or that has a number among them, is rejected with the same exception by every calculation that reads it. -/
theorem c71_uneven (c : Key) (ncomp : Nat) (sys : Sys) (L : List Row) (hL : sys.get? c = some (.arr L)) (r s : Row)
    (hr : r ∈ L) (hs : s ∈ L) (hrs : r.size ≠ s.size) :
    equilibriumPoints c sys = .error .valueError ∧ propertyPoints c ncomp sys = .error .valueError ∧
    (c = .xilist → saturationPoints sys = .error .valueError ∧ solubilityPoints ncomp sys = .error .valueError ∧
      verifyPoints ncomp sys = .error .valueError) := by
  have hcon : sys.contains c = true := by simp [PyDict.contains, hL]
  rcases wrapComp_uneven sys c L hL r s hr hs hrs with h | ⟨s', h, hL'⟩
  · refine ⟨?_, ?_, ?_⟩
    · simp only [equilibriumPoints, bind, Except.bind, hcon, h, Bool.not_true, Bool.false_eq_true, if_false]
    · simp only [propertyPoints, bind, Except.bind, h]
    · rintro rfl
      simp only [saturationPoints, solubilityPoints, verifyPoints, bind, Except.bind, h, hL, and_self]
  · have key : ∀ keys, c ∈ keys → checkRows s' keys none = .error .valueError := fun keys hk =>
      checkRows_uneven s' keys none c hk L hL' r s hr hs hrs
    refine ⟨?_, ?_, ?_⟩
    · simp only [equilibriumPoints, bind, Except.bind, hcon, h, key [.Tlist, c] (by simp), Bool.not_true,
        Bool.false_eq_true, if_false]
    · simp only [propertyPoints, bind, Except.bind, h, key [.Tlist, c, .Plist] (by simp)]
    · rintro rfl
      have h3 : [Key.Tlist, .xilist, .Plist].any s'.contains = true := by
        simp [PyDict.contains, hL']
      simp only [saturationPoints, solubilityPoints, verifyPoints, bind, Except.bind, h, hL, h3, if_true,
        key [.Tlist, .xilist] (by simp), key [.Tlist, .xilist, .Plist] (by simp), and_self]

/-- Two compositions of a binary mixture, the second with one fraction only. -/
example : propertyPoints .xilist 2 ⟨[(.xilist, .arr [.comp [some (1/4), some (3/4)], .comp [some 1]])]⟩ =
    .error .valueError := by decide +kernel

end Verif.Props
