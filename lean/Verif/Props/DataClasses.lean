import Verif.Proofs.DataClasses

/-!
# C74, C78, C80, C81, C82: what the data classes make of a data set
-/

namespace Verif.Props
open Verif Verif.DataClasses Verif.Toolbox Verif.Spec

variable {α : Type}

/-! ## C74: density options -/

/-- **C74 (partial).** In the classes for flash, liquid density, saturation and solubility data every density
option of the user is kept, and in the first three the others have the documented defaults. Partial:
not for TLVE data (`c74_violated_tlve`). -/
theorem c74_density_options_partial (c : Consts α) (k : Kind) (hk : k ≠ .tlve) (i : Input α) (b : Built α)
    (u : PyDict String α) (hu : u.WF) (hi : i.density = some u) (h : build c k i = .ok b) (key : String) :
    (∀ v, u.get? key = some v → b.density.get? key = some v) ∧
    (u.get? "density_increment" = none → k ≠ .solubility →
      b.density.get? "density_increment" = some c.densityIncrement) ∧
    (u.get? "max_volume_increment" = none → k ≠ .solubility →
      b.density.get? "max_volume_increment" = some c.volumeIncrement) ∧
    (u.get? "min_density_fraction" = none → k ≠ .solubility →
      b.density.get? "min_density_fraction" =
        some (if k = .saturation then c.frac80k else c.frac300k)) := by
  obtain ⟨d, w', t, _, _, _, _, _, _, _, hb, _⟩ := build_ok c k i b h
  rw [hb, hi]
  cases k with
  | tlve => exact absurd rfl hk
  | solubility =>
    refine ⟨fun v hv => hv, fun _ h => absurd rfl h, fun _ h => absurd rfl h, fun _ h => absurd rfl h⟩
  | flash | liquid | saturation =>
    simp only [densityOptions, Option.getD_some]
    refine ⟨fun v hv => ?_, fun hn _ => ?_, fun hn _ => ?_, fun hn _ => ?_⟩ <;>
      rw [PyDict.get?_update _ _ hu] <;> first | rw [hv]; rfl | rw [hn]; rfl

/-- **C74, violated.** A data set of the class TLVE always runs without any density option, whatever the user
gave, and without the documented defaults. -/
theorem c74_violated_tlve (c : Consts α) (i : Input α) (b : Built α) (h : build c .tlve i = .ok b)
    (key : String) : b.density.get? key = none := by
  obtain ⟨d, w', t, _, _, _, _, _, _, _, hb, _⟩ := build_ok c .tlve i b h
  rw [hb]
  rfl

/-! ## C80: the measured values -/

/-- Specification: the name under which an entry of a data set is used by the calculation. -/
def storedAs (k : Kind) (name : String) : String :=
  if name = "T" then "Tlist"
  else if name = "P" then (if k = .saturation then "Psat" else "Plist")
  else if name = "xi" then "xilist"
  else if name = "yi" then
    (if k = .tlve ∨ k = .flash then "yilist" else if k = .liquid then "yi" else "xilist")
  else name

theorem c80_moves_facts (k : Kind) : ∀ m ∈ moves k, storedAs k m.old = m.new ∧
    m.new ∉ (moves k).map Move.old ∧ storedAs k m.new = m.new ∧ m.new ≠ m.old ∧ m.new ≠ "Pguess" := by
  cases k <;> decide +kernel

theorem c80_storedAs_other (k : Kind) (name : String) (h : name ∉ (moves k).map Move.old) :
    storedAs k name = name := by
  cases k <;> simp only [moves, List.map_cons, List.map_nil, List.mem_cons, List.not_mem_nil, or_false,
    not_or] at h <;> unfold storedAs <;> simp [h] <;> exact fun e => e.symm

theorem c80_prepared (k : Kind) (i : Input α) (hw : i.data.WF) (name : String) (a : Arg α)
    (hd : i.data.get? name = some a) (hp : name ≠ "Pguess")
    (ho : ∀ name', name' ≠ name → storedAs k name' = storedAs k name → i.data.get? name' = none) :
    (prepare k i).1.get? (storedAs k name) = some a := by
  by_cases hm : name ∈ (moves k).map Move.old
  · obtain ⟨m, hm1, hm2⟩ := List.mem_map.mp hm
    obtain ⟨f1, f2, f3, f4, f5⟩ := c80_moves_facts k m hm1
    rw [hm2] at f1 f4
    rw [prepare_get k i hw _ (by rw [f1]; exact f5), f1, if_neg f2]
    rw [ho m.new f4 (by rw [f3, f1])]
    have := moves_vals_one (moves k) ⟨PyDict.empty, i.weights, i.data⟩ name m.new a hd ⟨m, hm1, hm2, rfl⟩
      (by
        intro m' hm' he
        have := (c80_moves_facts k m' hm').1
        rw [he, f1] at this
        exact this.symm)
      (by
        intro m' hm' hn hne
        apply ho _ hne
        rw [(c80_moves_facts k m' hm').1, hn, f1])
    rw [this]; rfl
  · have hs := c80_storedAs_other k name hm
    rw [hs, prepare_get k i hw _ hp, if_neg hm, hd]; rfl

/-- **C80 (a).** Whatever the class, a temperature, pressure, composition or measured property of the data set
reaches the calculation under the name it uses, repeated over the states if it is a single one,
provided it is not given under two names at once. -/
theorem c80_values_reach (c : Consts α) (k : Kind) (i : Input α) (hw : i.data.WF) (b : Built α)
    (h : build c k i = .ok b) (name : String) (a : Arg α) (hd : i.data.get? name = some a)
    (hk : storedAs k name ∈ allKeys k)
    (ho : ∀ name', name' ≠ name → storedAs k name' = storedAs k name → i.data.get? name' = none) :
    ∃ l, Broadcast b.npoints a l ∧ b.vals.get? (storedAs k name) = some (.arr l) := by
  apply built_get c k i b h _ hk a
  apply c80_prepared k i hw name a hd _ ho
  intro hp
  rw [hp] at hk
  revert hk
  cases k <;> decide +kernel

/-- The constants used in the examples. -/
def exampleConsts : Consts Nat where
  stdT := 298
  stdP := 101325
  pureRow := 1
  weight := 1
  frac300k := 3
  frac80k := 8
  densityIncrement := 10
  volumeIncrement := 4
  truth := fun l => match l with
    | [] => .ok false
    | [a] => .ok (a != 0)
    | _ => .error .valueError

/-- Saturation pressures at two temperatures. -/
example : build exampleConsts .saturation
    ⟨true, 1, ⟨[("P", .scalar 7)]⟩, some ⟨[("density_increment", 2)]⟩, none,
      ⟨[("T", .arr [300, 310]), ("P", .arr [11, 12])]⟩⟩ =
    .ok ⟨"saturation_properties",
      ⟨[("min_density_fraction", 8), ("density_increment", 2), ("max_volume_increment", 4)]⟩,
      ⟨[("Tlist", .arr [300, 310]), ("Psat", .arr [11, 12]), ("xilist", .arr [1, 1])]⟩,
      ⟨[("Psat", .arr [7, 7]), ("rhol", .scalar 1), ("rhov", .scalar 1)]⟩, 2, ["rhol", "rhov", "Psat"]⟩ := by
  decide +kernel

/-- A TLVE data set with density options of the user: the options are gone. -/
example : build exampleConsts .tlve
    ⟨true, 2, ⟨[]⟩, some ⟨[("density_increment", 2)]⟩, some "bubble_pressure",
      ⟨[("T", .scalar 300), ("xi", .arr [5, 6]), ("P", .arr [11, 12])]⟩⟩ =
    .ok ⟨"bubble_pressure", ⟨[]⟩,
      ⟨[("Tlist", .arr [300, 300]), ("xilist", .arr [5, 6]), ("Plist", .arr [11, 12]),
        ("Pguess", .arr [11, 12])]⟩,
      ⟨[("Plist", .scalar 1), ("yilist", .scalar 1)]⟩, 2, ["Plist", "yilist"]⟩ := by
  decide +kernel

/-! ## C78: defaults of the conditions -/

theorem c78_no_entry (k : Kind) (i : Input α) (hw : i.data.WF) (key : String)
    (hp : key ≠ "Pguess") (h0 : i.data.get? key = none)
    (h : ∀ m ∈ moves k, m.new = key → i.data.get? m.old = none) : (prepare k i).1.get? key = none := by
  rw [prepare_get k i hw key hp]
  have : ∀ (ms : List Move) (s : St α), s.vals.get? key = none →
      (∀ m ∈ ms, m.new = key → s.data.get? m.old = none) → (ms.foldl move s).vals.get? key = none := by
    intro ms
    induction ms with
    | nil => intro s hs _; exact hs
    | cons m ms ih =>
      intro s hs hno
      simp only [List.foldl_cons]
      apply ih
      · rw [move_vals]
        by_cases hk : m.new = key
        · rw [if_pos hk, hno m (List.mem_cons_self ..) hk, hs]; rfl
        · rw [if_neg hk, hs]
      · intro m' hm' hk'
        rw [move_data, hno m' (List.mem_cons_of_mem _ hm') hk']
        simp
  rw [this (moves k) ⟨PyDict.empty, i.weights, i.data⟩ rfl h, h0]
  simp

/-- **C78 (partial).** A saturation or solubility data set without temperature is taken at the standard
temperature, and a flash, liquid density or solubility data set without pressure at the standard
pressure. Partial: see `c78_violated_temperature`. -/
theorem c78_defaults_partial (c : Consts α) (k : Kind) (i : Input α) (hw : i.data.WF) (b : Built α)
    (h : build c k i = .ok b) :
    (k = .saturation ∨ k = .solubility → i.data.get? "T" = none → i.data.get? "Tlist" = none →
      b.vals.get? "Tlist" = some (.arr (List.replicate b.npoints c.stdT))) ∧
    (k = .flash ∨ k = .liquid ∨ k = .solubility → i.data.get? "P" = none → i.data.get? "Plist" = none →
      b.vals.get? "Plist" = some (.arr (List.replicate b.npoints c.stdP))) := by
  obtain ⟨d, w', t, hc, _, hd, _⟩ := build_ok c k i b h
  obtain ⟨n, _, hnone⟩ := lengths_get _ _ _ hc
  have use : ∀ (key old : String) (ks : List String) (vs : List (Arg α)) (j : Nat) (hj : j < ks.length)
      (hv : j < vs.length) (x : α), key ≠ "Pguess" → i.data.get? old = none → i.data.get? key = none →
      (∀ m ∈ moves k, m.new = key → m.old = old) → ks.Nodup → ks[j] = key → vs[j] = .scalar x →
      setDefaults (updateArr (prepare k i).1 d) (.many ks) (.many vs) (some b.npoints) = .ok b.vals →
      b.vals.get? key = some (.arr (List.replicate b.npoints x)) := by
    intro key old ks vs j hj hv x hp h1 h2 h3 hnd hkj hvj hset
    have hno : (prepare k i).1.get? key = none :=
      c78_no_entry k i hw key hp h2 (fun m hm hk => by rw [h3 m hm hk]; exact h1)
    obtain ⟨_, hfill, _⟩ := c02_missing_filled _ _ _ _ _ hnd hset
    have := hfill j hj hv (by rw [hkj]; exact hnone key hno)
    rw [hkj, hvj] at this
    exact this
  constructor
  · intro hk h1 h2
    rcases hk with rfl | rfl <;> simp only [withDefaults] at hd
    · exact use "Tlist" "T" _ _ 1 (by decide) (by simp) c.stdT (by decide) h1 h2 (by decide +kernel)
        (by decide) (by rfl) (by rfl) hd
    · exact use "Tlist" "T" _ _ 2 (by decide) (by simp) c.stdT (by decide) h1 h2 (by decide +kernel)
        (by decide) (by rfl) (by rfl) hd
  · intro hk h1 h2
    rcases hk with rfl | rfl | rfl <;> simp only [withDefaults] at hd
    · exact use "Plist" "P" _ _ 0 (by decide) (by simp) c.stdP (by decide) h1 h2 (by decide +kernel)
        (by decide) (by rfl) (by rfl) hd
    · exact use "Plist" "P" _ _ 0 (by decide) (by simp) c.stdP (by decide) h1 h2 (by decide +kernel)
        (by decide) (by rfl) (by rfl) hd
    · exact use "Plist" "P" _ _ 0 (by decide) (by simp) c.stdP (by decide) h1 h2 (by decide +kernel)
        (by decide) (by rfl) (by rfl) hd

/-- **C78, violated.** A TLVE, flash or liquid density data set without temperature is always rejected: the
number of states is read from the temperatures before the default is set. -/
theorem c78_violated_temperature (c : Consts α) (k : Kind) (hk : k = .tlve ∨ k = .flash ∨ k = .liquid)
    (i : Input α) (hw : i.data.WF) (h1 : i.data.get? "T" = none) (h2 : i.data.get? "Tlist" = none) :
    ∃ e, build c k i = .error e := by
  cases h : build c k i with
  | error e => exact ⟨e, rfl⟩
  | ok b =>
    exfalso
    obtain ⟨d, w', t, hc, hn, _⟩ := build_ok c k i b h
    obtain ⟨n, _, hnone⟩ := lengths_get _ _ _ hc
    have hno : (prepare k i).1.get? "Tlist" = none := by
      apply c78_no_entry k i hw "Tlist" (by decide) h2
      intro m hm hk'
      have : m.old = "T" := by
        have := fun k => (by cases k <;> decide +kernel :
          ∀ m ∈ moves k, m.new = "Tlist" → m.old = "T")
        exact this k m hm hk'
      rw [this]; exact h1
    have := hnone _ hno
    rcases hk with rfl | rfl | rfl <;> simp [npoints, sizeAt, this] at hn

/-- **C78, violated (how).** When nothing else is wrong with such a data set, the exception is a `KeyError`; the same for
solubility data without the solubility parameter. -/
theorem c78_violated_key (c : Consts α) (k : Kind) (i : Input α) (hw : i.data.WF) (he : i.hasEos = true)
    (d : PyDict String (List α)) (hd : checkLengthDict (prepare k i).1 (allKeys k) none = .ok d) (key old : String)
    (hk : (k = .tlve ∨ k = .flash ∨ k = .liquid) ∧ key = "Tlist" ∧ old = "T" ∨
      k = .solubility ∧ key = "delta" ∧ old = "delta")
    (h1 : i.data.get? old = none) (h2 : i.data.get? key = none) :
    build c k i = .error .keyError := by
  obtain ⟨n, _, hnone⟩ := lengths_get _ _ _ hd
  have hkey : key ≠ "Pguess" := by rcases hk with ⟨-, rfl, -⟩ | ⟨-, rfl, -⟩ <;> decide
  have hm : ∀ m ∈ moves k, m.new = key → m.old = old := by
    rcases hk with ⟨hk, rfl, rfl⟩ | ⟨rfl, rfl, rfl⟩
    · rcases hk with rfl | rfl | rfl <;> decide +kernel
    · decide +kernel
  have hno : (prepare k i).1.get? key = none :=
    c78_no_entry k i hw key hkey h2 (fun m hm' hk' => by rw [hm m hm' hk']; exact h1)
  have hg := hnone key hno
  have hs : satWeightCheck k i = .ok () := by
    rcases hk with ⟨hk, -⟩ | ⟨rfl, -⟩
    · rcases hk with rfl | rfl | rfl <;> rfl
    · rfl
  have hn : npoints k (updateArr (prepare k i).1 d) = .error .keyError := by
    rcases hk with ⟨hk, rfl, rfl⟩ | ⟨rfl, rfl, rfl⟩
    · rcases hk with rfl | rfl | rfl <;> simp [npoints, sizeAt, hg]
    · simp [npoints, sizeAt, hg]
  simp [build, he, hs, hd, hn]

example : build exampleConsts .flash ⟨true, 2, ⟨[]⟩, none, none,
    ⟨[("P", .arr [1, 2]), ("xi", .arr [5, 6]), ("yi", .arr [7, 8])]⟩⟩ = .error .keyError := by
  decide +kernel
example : ∃ b, build exampleConsts .flash ⟨true, 2, ⟨[]⟩, none, none,
    ⟨[("T", .arr [300, 310]), ("xi", .arr [5, 6]), ("yi", .arr [7, 8])]⟩⟩ = .ok b ∧
    b.vals.get? "Plist" = some (.arr [101325, 101325]) := by
  refine ⟨⟨"flash", ⟨[("min_density_fraction", 3), ("density_increment", 10), ("max_volume_increment", 4)]⟩,
    ⟨[("xilist", .arr [5, 6]), ("yilist", .arr [7, 8]), ("Tlist", .arr [300, 310]),
      ("Plist", .arr [101325, 101325])]⟩, ⟨[("xilist", .scalar 1), ("yilist", .scalar 1)]⟩, 2,
      ["xilist", "yilist"]⟩, ?_, ?_⟩ <;> decide +kernel

/-! ## C81: completeness -/

/-- **C81 (partial).** A flash data set that is accepted has both compositions, and an accepted saturation
data set has a temperature and at least one of the three properties to compare with. Partial: see the
violations below. -/
theorem c81_complete_partial (c : Consts α) (k : Kind) (i : Input α) (b : Built α)
    (h : build c k i = .ok b) :
    (k = .flash → b.vals.contains "xilist" = true ∧ b.vals.contains "yilist" = true) ∧
    (k = .saturation → b.vals.contains "Tlist" = true ∧ (b.vals.contains "Psat" = true ∨
      b.vals.contains "rhol" = true ∨ b.vals.contains "rhov" = true)) := by
  obtain ⟨d, w', t, _, _, _, _, hi, _⟩ := build_ok c k i b h
  constructor
  · rintro rfl
    simp only [incomplete, Bool.or_eq_false_iff, Bool.not_eq_false'] at hi
    exact hi.2
  · rintro rfl
    simp only [incomplete, Bool.or_eq_false_iff, Bool.not_eq_false', Bool.or_eq_true] at hi
    exact ⟨hi.1, or_assoc.mp hi.2⟩

/-- **C81, violated.** Liquid density data without a density is accepted: there is nothing to fit to, and the
objective will look for a missing entry. -/
theorem c81_violated_liquid : ∃ (i : Input Nat) (b : Built Nat),
    build exampleConsts .liquid i = .ok b ∧ b.vals.get? "rhol" = none := by
  refine ⟨⟨true, 1, ⟨[]⟩, none, none, ⟨[("T", .arr [300, 310])]⟩⟩,
    ⟨"liquid_properties",
      ⟨[("min_density_fraction", 3), ("density_increment", 10), ("max_volume_increment", 4)]⟩,
      ⟨[("Tlist", .arr [300, 310]), ("Plist", .arr [101325, 101325]), ("xilist", .arr [1, 1])]⟩,
      ⟨[("rhol", .scalar 1), ("phil", .scalar 1)]⟩, 2, ["rhol", "phil"]⟩, ?_, ?_⟩ <;> decide +kernel

/-- **C81, violated.** So is TLVE data with liquid compositions only, for a calculation of bubble pressures. -/
theorem c81_violated_tlve : ∃ (i : Input Nat) (b : Built Nat),
    build exampleConsts .tlve i = .ok b ∧ b.calcType = "bubble_pressure" ∧
      b.vals.get? "Plist" = none ∧ b.vals.get? "yilist" = none := by
  refine ⟨⟨true, 2, ⟨[]⟩, none, some "bubble_pressure", ⟨[("T", .arr [300, 310]), ("xi", .arr [5, 6])]⟩⟩,
    ⟨"bubble_pressure", ⟨[]⟩, ⟨[("Tlist", .arr [300, 310]), ("xilist", .arr [5, 6])]⟩,
      ⟨[("Plist", .scalar 1), ("yilist", .scalar 1)]⟩, 2, ["Plist", "yilist"]⟩, ?_, ?_, ?_, ?_⟩ <;>
    decide +kernel

/-- **C81, violated.** Solubility data with liquid densities to compare with, which the objective supports,
is rejected when it has no solubility parameters. -/
theorem c81_violated_solubility (c : Consts α) (i : Input α) (hw : i.data.WF)
    (h1 : i.data.get? "delta" = none) : ∃ e, build c .solubility i = .error e := by
  cases h : build c .solubility i with
  | error e => exact ⟨e, rfl⟩
  | ok b =>
    exfalso
    obtain ⟨d, w', t, hc, hn, _⟩ := build_ok c .solubility i b h
    obtain ⟨n, _, hnone⟩ := lengths_get _ _ _ hc
    have hno : (prepare .solubility i).1.get? "delta" = none := by
      apply c78_no_entry .solubility i hw "delta" (by decide) h1
      intro m hm hk'
      exact absurd hk' ((by decide +kernel : ∀ m ∈ moves .solubility, m.new ≠ "delta") m hm)
    simp [npoints, sizeAt, hnone _ hno] at hn

/-! ## C82: the default calculation of TLVE data -/

/-- **C82 (partial).** The class uses the calculation the user asks for, and each class but TLVE has its own
when none is given. -/
theorem c82_calculation_partial (c : Consts α) (k : Kind) (i : Input α) (b : Built α)
    (h : build c k i = .ok b) :
    (∀ t, i.calcType = some t → b.calcType = t) ∧
    (i.calcType = none → (k = .flash → b.calcType = "flash") ∧
      (k = .liquid → b.calcType = "liquid_properties") ∧
      (k = .saturation → b.calcType = "saturation_properties") ∧
      (k = .solubility → b.calcType = "solubility_parameter")) := by
  obtain ⟨d, w', t, _, _, _, _, _, ht, hb, _⟩ := build_ok c k i b h
  constructor
  · intro t' ht'
    rw [ht'] at ht
    simp only [calculation, Except.ok.injEq] at ht
    rw [hb, ← ht]
  · intro hn
    rw [hn] at ht
    refine ⟨?_, ?_, ?_, ?_⟩ <;> rintro rfl <;> simp only [calculation, Except.ok.injEq] at ht <;>
      rw [hb, ← ht]

/-- **C82, violated.** Without a calculation type, TLVE data with vapour compositions only (which should be
evaluated by dew pressures) is always rejected. -/
theorem c82_violated_dew (c : Consts α) (i : Input α) (hw : i.data.WF) (ht : i.calcType = none)
    (h1 : i.data.get? "xi" = none) (h2 : i.data.get? "xilist" = none) :
    ∃ e, build c .tlve i = .error e := by
  cases h : build c .tlve i with
  | error e => exact ⟨e, rfl⟩
  | ok b =>
    exfalso
    obtain ⟨d, w', t, hc, _, hd, _, _, hcalc, _⟩ := build_ok c .tlve i b h
    obtain ⟨n, _, hnone⟩ := lengths_get _ _ _ hc
    have hno : (prepare .tlve i).1.get? "xilist" = none := by
      apply c78_no_entry .tlve i hw "xilist" (by decide) h2
      intro m hm hk'
      have : m.old = "xi" := (by decide +kernel :
          ∀ m ∈ moves .tlve, m.new = "xilist" → m.old = "xi") m hm hk'
      rw [this]; exact h1
    have hv : b.vals.get? "xilist" = none := by
      have h3 := hnone _ hno
      simp only [withDefaults, setDefaults, pairDefaults, Except.ok.injEq] at hd
      rw [← hd]
      simp only [defaultsLoop]
      split
      · exact h3
      · rw [PyDict.get?_set_ne _ _ (by decide)]; exact h3
    rw [ht] at hcalc
    simp [calculation, tlveDefault, hv] at hcalc

/-- **C82, violated.** With liquid compositions it is rejected too as soon as there is more than one number:
the truth value of such an array is an error in numpy. -/
theorem c82_violated_bubble (c : Consts α) (i : Input α) (hw : i.data.WF) (ht : i.calcType = none)
    (a : Arg α) (h1 : i.data.get? "xi" = some a) (h2 : i.data.get? "xilist" = none)
    (htruth : ∀ n l, Broadcast n a l → c.truth l = .error .valueError) :
    ∃ e, build c .tlve i = .error e := by
  cases h : build c .tlve i with
  | error e => exact ⟨e, rfl⟩
  | ok b =>
    exfalso
    obtain ⟨l, hb, hv⟩ := c80_values_reach c .tlve i hw b h "xi" a h1 (by decide) (by
      intro name' hne hs
      by_cases h3 : name' = "xilist"
      · rw [h3]; exact h2
      · exfalso
        have hx : storedAs .tlve "xi" = "xilist" := by decide
        rw [hx] at hs
        by_cases h4 : name' = "T"
        · subst h4; exact absurd hs (by decide)
        by_cases h5 : name' = "P"
        · subst h5; exact absurd hs (by decide)
        by_cases h6 : name' = "yi"
        · subst h6; exact absurd hs (by decide)
        unfold storedAs at hs
        rw [if_neg h4, if_neg h5, if_neg hne, if_neg h6] at hs
        exact h3 hs)
    obtain ⟨d, w', t, _, _, _, _, _, hcalc, _⟩ := build_ok c .tlve i b h
    rw [ht] at hcalc
    have hs : storedAs .tlve "xi" = "xilist" := by decide
    rw [hs] at hv
    simp [calculation, tlveDefault, hv, truthOf, htruth _ _ hb] at hcalc

example : build exampleConsts .tlve ⟨true, 2, ⟨[]⟩, none, none,
    ⟨[("T", .arr [300, 310]), ("xi", .arr [5, 6]), ("P", .arr [1, 2])]⟩⟩ = .error .valueError ∧
    build exampleConsts .tlve ⟨true, 2, ⟨[]⟩, none, none,
    ⟨[("T", .arr [300, 310]), ("yi", .arr [5, 6]), ("P", .arr [1, 2])]⟩⟩ = .error .keyError := by
  decide +kernel

/-! ## C80–C82, continued: weights, results and the composition of a mixture -/

theorem move_weights (s : St α) (m : Move) (key : String) :
    (move s m).weights.get? key =
      if (s.data.get? m.old).isSome ∧ m.wt = true ∧ (s.weights.get? m.old).isSome then
        if key = m.new then s.weights.get? m.old else if key = m.old then none else s.weights.get? key
      else s.weights.get? key := by
  unfold move
  cases hd : s.data.get? m.old with
  | none => simp
  | some v =>
    cases hw : m.wt with
    | false => simp
    | true =>
      simp only [if_true, renameKey]
      cases hg : s.weights.get? m.old with
      | none => simp
      | some x =>
        simp only [Option.isSome_some, true_and, if_true, PyDict.get?_set, PyDict.get?_erase]
        by_cases h1 : key = m.new
        · simp [h1]
        · rw [if_neg (fun e => h1 e.symm), if_neg h1]
          by_cases h2 : key = m.old
          · simp [h2]
          · rw [if_neg (fun e => h2 e.symm), if_neg h2]

theorem prepared_weight (k : Kind) (i : Input α) (name : String) (a w : Arg α)
    (hs : storedAs k name ∈ resultKeys k) (hd : i.data.get? name = some a) (hw : i.weights.get? name = some w)
    (ho : ∀ name', name' ≠ name → storedAs k name' = storedAs k name → i.data.get? name' = none) :
    (prepare k i).2.get? (storedAs k name) = some w ∧
      (name ≠ storedAs k name → (prepare k i).2.get? name = none) := by
  have hT : storedAs k "T" = "Tlist" := rfl
  by_cases h1 : name = "T"
  · subst h1; exfalso; revert hs; cases k <;> decide
  by_cases h2 : name = "P"
  · subst h2
    cases k with
    | tlve => 
      simp [prepare, moves, move_weights, move_data, storedAs, hd, hw]
    | flash => exfalso; revert hs; decide
    | liquid => exfalso; revert hs; decide
    | solubility => exfalso; revert hs; decide
    | saturation => simp [prepare, moves, move_weights, move_data, storedAs, hd, hw]
  by_cases h3 : name = "xi"
  · subst h3
    cases k with
    | tlve => simp [prepare, moves, move_weights, move_data, storedAs, hd, hw]
    | flash => simp [prepare, moves, move_weights, move_data, storedAs, hd, hw]
    | liquid => exfalso; revert hs; decide
    | solubility => exfalso; revert hs; decide
    | saturation => exfalso; revert hs; decide
  by_cases h4 : name = "yi"
  · subst h4
    cases k with
    | tlve => simp [prepare, moves, move_weights, move_data, storedAs, hd, hw]
    | flash => simp [prepare, moves, move_weights, move_data, storedAs, hd, hw]
    | liquid => exfalso; revert hs; decide
    | solubility => exfalso; revert hs; decide
    | saturation => exfalso; revert hs; decide
  have hn : storedAs k name = name := by simp [storedAs, h1, h2, h3, h4]
  rw [hn] at hs ho ⊢
  refine ⟨?_, fun h => absurd rfl h⟩
  have key : ∀ m ∈ moves k, m.new = name → i.data.get? m.old = none := by
    intro m hm hmn
    have hf := c80_moves_facts k m hm
    exact ho m.old (by rw [← hmn]; exact fun e => hf.2.2.2.1 e.symm) (by rw [hf.1, hmn])
  have gen : ∀ (ms : List Move) (s : St α), (∀ m ∈ ms, m ∈ moves k) → (∀ m ∈ moves k, m.new = name → s.data.get? m.old = none) →
      s.weights.get? name = some w → (ms.foldl move s).weights.get? name = some w := by
    intro ms
    induction ms with
    | nil => intro s _ _ h; exact h
    | cons m ms ih =>
      intro s hm hk h
      refine ih _ (fun m' hm' => hm m' (List.mem_cons_of_mem _ hm')) (fun m' hm' e => ?_) ?_
      · rw [move_data]; split
        · rfl
        · exact hk m' hm' e
      · have hmem := hm m (List.mem_cons_self ..)
        have hf := c80_moves_facts k m hmem
        rw [move_weights]
        split
        · rename_i hc
          by_cases e1 : name = m.new
          · rw [hk m hmem e1.symm] at hc; exact absurd hc.1 (by simp)
          · rw [if_neg e1, if_neg, h]
            intro e2
            have : storedAs k name = m.new := by rw [e2]; exact hf.1
            rw [hn] at this; exact e1 this
        · exact h
  exact gen _ _ (fun _ h => h) key hw

/-- **C80 (b).** The weight of an entry follows it: it is stored under the name of the result it belongs to, repeated
over the states if it is a single one, and no longer under the old name. -/
theorem c80_weights_follow (c : Consts α) (k : Kind) (i : Input α) (b : Built α)
    (h : build c k i = .ok b) (name : String) (a w : Arg α) (hd : i.data.get? name = some a)
    (hw : i.weights.get? name = some w) (hk : storedAs k name ∈ b.resultKeys)
    (ho : ∀ name', name' ≠ name → storedAs k name' = storedAs k name → i.data.get? name' = none) :
    (∃ l, Broadcast b.npoints w l ∧ b.weights.get? (storedAs k name) = some (.arr l)) ∧
      (name ≠ storedAs k name → b.weights.get? name = none) := by
  obtain ⟨d, w', t, _, _, _, hf, _, _, _, _, hbw, hbr, _⟩ := build_ok c k i b h
  have hsub : ∀ key, key ∈ finalResults k t → key ∈ resultKeys k ∧
      (finalWeights k t w').get? key = w'.get? key := by
    intro key hkey
    cases k with
    | tlve =>
      unfold finalResults at hkey
      unfold finalWeights
      simp only at hkey ⊢
      by_cases h1 : t = "bubble_pressure"
      · rw [if_pos h1] at hkey ⊢
        refine ⟨List.mem_of_mem_erase hkey, ?_⟩
        rw [PyDict.get?_erase, if_neg]
        rintro rfl; exact absurd hkey (by decide)
      · rw [if_neg h1] at hkey ⊢
        by_cases h2 : t = "dew_pressure"
        · rw [if_pos h2] at hkey ⊢
          refine ⟨List.mem_of_mem_erase hkey, ?_⟩
          rw [PyDict.get?_erase, if_neg]
          rintro rfl; exact absurd hkey (by decide)
        · rw [if_neg h2] at hkey ⊢; exact ⟨hkey, rfl⟩
    | flash => exact ⟨hkey, rfl⟩
    | liquid => exact ⟨hkey, rfl⟩
    | saturation => exact ⟨hkey, rfl⟩
    | solubility => exact ⟨hkey, rfl⟩
  rw [hbr] at hk
  obtain ⟨hk1, hk2⟩ := hsub _ hk
  obtain ⟨p1, p2⟩ := prepared_weight k i name a w hk1 hd hw ho
  unfold fillWeights at hf
  cases hc : checkLengthDict (prepare k i).2 (resultKeys k) (some b.npoints) with
  | error e => rw [hc] at hf; cases hf
  | ok d =>
    rw [hc] at hf
    simp only at hf
    have hwf := checkLengthDict_WF _ _ _ _ hc
    obtain ⟨n, hn, h2, h3⟩ := c01_accepted _ _ _ _ hc
    have hn' : n = b.npoints := by simpa [IsPointCount] using hn
    constructor
    · obtain ⟨l, hl, _⟩ := h3 _ hk1 w p1
      obtain ⟨_, w0, hw0, hbc⟩ := (h2 _ l).mp hl
      rw [p1] at hw0; cases hw0
      refine ⟨l, hn' ▸ hbc, ?_⟩
      rw [hbw, hk2]
      apply c02_user_value_kept _ _ _ _ _ hf
      rw [updateArr_get _ _ hwf, hl]; rfl
    · intro hne
      have hnk : name ∉ resultKeys k := by
        intro hin
        apply hne
        cases k <;> simp only [resultKeys, List.mem_cons, List.not_mem_nil, or_false] at hin <;>
          rcases hin with rfl | rfl | rfl <;> rfl
      have hw'n : w'.get? name = none := by
        rw [(c02_missing_filled_scalar _ _ _ _ _ hf name).2 hnk, updateArr_get _ _ hwf, p2 hne]
        cases hd' : d.get? name with
        | none => rfl
        | some l => exact absurd ((h2 name l).mp hd').1 hnk
      rw [hbw]
      unfold finalWeights
      split
      · split
        · simp [PyDict.get?_erase, hw'n]
        · split
          · simp [PyDict.get?_erase, hw'n]
          · exact hw'n
      · exact hw'n

/-- **C80 (c).** A list of weights of the saturation pressures that is accepted has one weight for each pressure. -/
theorem c80_saturation_weights (c : Consts α) (i : Input α) (b : Built α) (h : build c .saturation i = .ok b)
    (p w : List α) (hp : i.data.get? "P" = some (.arr p)) (hw : i.weights.get? "P" = some (.arr w)) :
    w.length = p.length := by
  by_contra hne
  unfold build at h
  by_cases he : i.hasEos = false
  · rw [if_pos he] at h; cases h
  · rw [if_neg he] at h
    have : satWeightCheck .saturation i = .error .valueError := by
      simp only [satWeightCheck, hp, hw, if_pos hne]
    rw [this] at h; cases h

/-- **C81 (results).** The quantities compared with the measured ones are those of the class; for bubble and dew points
the composition that is given is not one of them. -/
theorem c81_results (c : Consts α) (k : Kind) (i : Input α) (b : Built α) (h : build c k i = .ok b) :
    b.resultKeys = match k with
      | .tlve => if b.calcType = "bubble_pressure" then ["Plist", "yilist"]
          else if b.calcType = "dew_pressure" then ["Plist", "xilist"] else ["Plist", "xilist", "yilist"]
      | .flash => ["xilist", "yilist"]
      | .liquid => ["rhol", "phil"]
      | .saturation => ["rhol", "rhov", "Psat"]
      | .solubility => ["rhol", "delta"] := by
  obtain ⟨d, w', t, _, _, _, _, _, _, ht, _, _, hbr, _⟩ := build_ok c k i b h
  rw [hbr, ht]
  cases k <;> rfl

/-- **C81 (composition).** A mixture without composition is rejected by the classes for liquid densities, saturation
properties and solubility parameters. -/
theorem c81_composition (c : Consts α) (k : Kind) (hk : k = .liquid ∨ k = .saturation ∨ k = .solubility) (i : Input α)
    (hw : i.data.WF) (b : Built α) (h : build c k i = .ok b) (hc : 2 ≤ i.comps) :
    ∃ name, storedAs k name = "xilist" ∧ i.data.get? name ≠ none := by
  by_contra hno
  have hall : ∀ name, storedAs k name = "xilist" → i.data.get? name = none := by
    intro name hs
    by_contra hne
    exact hno ⟨name, hs, hne⟩
  have hp : (prepare k i).1.get? "xilist" = none := by
    apply c78_no_entry k i hw "xilist" (by decide)
    · exact hall _ (by rcases hk with rfl | rfl | rfl <;> decide)
    · intro m hm hmn
      exact hall _ (by rw [(c80_moves_facts k m hm).1, hmn])
  obtain ⟨d, w', t, hcl, hn, hd, hf, hi, hcalc, _⟩ := build_ok c k i b h
  obtain ⟨n, _, hnone⟩ := lengths_get _ _ _ hcl
  have hx := hnone _ hp
  have ha : ambiguous k i.comps (updateArr (prepare k i).1 d) = true := by
    have h1 : (updateArr (prepare k i).1 d).contains "xilist" = false := by simp [PyDict.contains, hx]
    rcases hk with rfl | rfl | rfl <;> simp [ambiguous, h1] <;> omega
  unfold build at h
  by_cases he : i.hasEos = false
  · rw [if_pos he] at h; cases h
  · rw [if_neg he] at h
    cases hs : satWeightCheck k i with
    | error e => simp only [hs] at h; cases h
    | ok u =>
      simp only [hs, hcl, hn, finish, ha, if_true] at h
      cases h

/-- **C82 (TLVE).** Without a calculation type the truth value of the liquid composition decides: true gives bubble
points, false gives dew points if the vapour composition is true. -/
theorem c82_tlve_partial (c : Consts α) (i : Input α) (b : Built α) (h : build c .tlve i = .ok b)
    (ht : i.calcType = none) :
    ∃ x, b.vals.get? "xilist" = some x ∧
      ((truthOf c x = .ok true ∧ b.calcType = "bubble_pressure") ∨
        (truthOf c x = .ok false ∧ b.calcType = "dew_pressure" ∧
          ∃ y, b.vals.get? "yilist" = some y ∧ truthOf c y = .ok true)) := by
  obtain ⟨d, w', t, _, _, _, _, _, hcalc, hb, _⟩ := build_ok c .tlve i b h
  rw [ht] at hcalc
  simp only [calculation, tlveDefault] at hcalc
  cases hx : b.vals.get? "xilist" with
  | none => simp only [hx] at hcalc; cases hcalc
  | some x =>
    refine ⟨x, rfl, ?_⟩
    simp only [hx] at hcalc
    cases htr : truthOf c x with
    | error e => simp only [htr] at hcalc; cases hcalc
    | ok v =>
      cases v with
      | true =>
        simp only [htr, Except.ok.injEq] at hcalc
        exact .inl ⟨rfl, by rw [hb, ← hcalc]⟩
      | false =>
        simp only [htr] at hcalc
        cases hy : b.vals.get? "yilist" with
        | none => simp only [hy] at hcalc; cases hcalc
        | some y =>
          simp only [hy] at hcalc
          cases htr2 : truthOf c y with
          | error e => simp only [htr2] at hcalc; cases hcalc
          | ok v =>
            cases v with
            | true =>
              simp only [htr2, Except.ok.injEq] at hcalc
              exact .inr ⟨rfl, by rw [hb, ← hcalc], y, rfl, htr2⟩
            | false => simp only [htr2] at hcalc; cases hcalc

/-- Weights of a flash, and a bubble point of a pure component without calculation type. -/
example : build exampleConsts .flash ⟨true, 2, ⟨[("xi", .scalar 3)]⟩, none, none,
    ⟨[("T", .arr [300, 310]), ("xi", .arr [5, 6]), ("yi", .arr [7, 8])]⟩⟩ =
    .ok ⟨"flash", ⟨[("min_density_fraction", 3), ("density_increment", 10), ("max_volume_increment", 4)]⟩,
      ⟨[("xilist", .arr [5, 6]), ("yilist", .arr [7, 8]), ("Tlist", .arr [300, 310]),
      ("Plist", .arr [101325, 101325])]⟩, ⟨[("xilist", .arr [3, 3]), ("yilist", .scalar 1)]⟩, 2,
      ["xilist", "yilist"]⟩ := by decide +kernel
example : (build exampleConsts .tlve ⟨true, 1, ⟨[]⟩, none, none,
    ⟨[("T", .arr [300]), ("xi", .arr [1]), ("P", .arr [7])]⟩⟩).toOption.map Built.calcType = some "bubble_pressure" := by
  decide +kernel

end Verif.Props
