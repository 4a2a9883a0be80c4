import Verif.Props.AssocMatrices
import Mathlib.Tactic.Tauto

/-! # C147: the association matrices of a whole run -/

namespace Verif.Props
open Verif Verif.Assoc

section
variable {K : Type} [Field K] [LinearOrder K]

/-! ## Statements -/

/-- The group `i` has the site `a`. -/
def HasSite (c : Cfg K) (i a : ℕ) : Prop := i < c.nb ∧ a < c.ns ∧ c.nk i a ≠ 0

/-- The entry of a group for two sites, in the order of the list of sites or else in the other order. -/
def entryOf (f : ℕ → ℕ → Option K) (a b : ℕ) : Option K := (f (min a b) (max a b)).or (f (max a b) (min a b))

open Classical in
/-- The same for two sites the group has; nothing otherwise. -/
noncomputable def ownEntry (c : Cfg K) (f : ℕ → ℕ → ℕ → Option K) (i a b : ℕ) : Option K :=
  if HasSite c i a ∧ HasSite c i b then entryOf (f i) a b else none

/-- The energy of two sites of one group: sites of one kind repel. -/
noncomputable def ownEnergy (c : Cfg K) (i j a b : ℕ) : K :=
  if i = j then ((ownEntry c c.slf.eps i a b).map fun ε => if a = b then -|ε| else ε).getD 0 else 0

/-- A bonding parameter of two sites of one group; it counts only beside an energy. -/
noncomputable def ownBond (c : Cfg K) (f : ℕ → ℕ → ℕ → Option K) (i j a b : ℕ) : K :=
  if i = j then ((ownEntry c c.slf.eps i a b).bind fun _ => ownEntry c f i a b).getD 0 else 0

/-- What is wrong with the entries of one pair of sites. -/
def Inconsistent (L : Lib K ℕ) (i a b : ℕ) : Prop :=
  (entryOf (L.eps i) a b ≠ none ∧ entryOf (L.vol i) a b = none ∧ entryOf (L.rc i) a b = none) ∨
    (entryOf (L.vol i) a b ≠ none ∧ entryOf (L.rc i) a b ≠ none) ∨
    (entryOf (L.eps i) a b = none ∧ (entryOf (L.vol i) a b ≠ none ∨ entryOf (L.rc i) a b ≠ none))

/-- The sign of a product. -/
def signOf (x : K) : K := if x < 0 then -1 else if x = 0 then 0 else 1

/-- The combined energy of two sites that have energies with themselves. -/
noncomputable def combinedEnergy (sqrt : K → K) (c : Cfg K) (i j a b : ℕ) : K :=
  match c.slf.eps i a a, c.slf.eps j b b with
  | some ea, some eb => sqrt (|ea| * |eb|) * (-signOf (ea * eb))
  | _, _ => 0

/-- Two sites that the groups have, other than a site with itself. -/
def Meets (c : Cfg K) (i j a b : ℕ) : Prop := HasSite c i a ∧ HasSite c j b ∧ ¬ (i = j ∧ a = b)

/-- A kind of bonding parameter is given, beside an energy, for two sites of some group. -/
def InUse (c : Cfg K) (f : ℕ → ℕ → ℕ → Option K) : Prop :=
  ∃ i a b, ownEntry c c.slf.eps i a b ≠ none ∧ ownEntry c f i a b ≠ none

/-- The bonding parameter of two sites: the one of the group or, where that is absent or zero, the combination of those of
the two sites with themselves, provided the kind of parameter is in use. -/
noncomputable def combinedBond (c : Cfg K) (f : ℕ → ℕ → ℕ → Option K) (mix : K → K → K) (i j a b : ℕ) : K :=
  open Classical in
  if InUse c f ∧ ownBond c f i j a b = 0 ∧ Meets c i j a b then mix (ownBond c f i i a a) (ownBond c f j j b b)
  else ownBond c f i j a b

/-- The libraries are inconsistent: for two sites of a group; or volumes are in use as well as cutoffs; or distances
without cutoffs. -/
def Refused (c : Cfg K) : Prop :=
  (∃ i a b, HasSite c i a ∧ HasSite c i b ∧ Inconsistent c.slf i a b) ∨ (InUse c c.slf.vol ∧ InUse c c.slf.rc) ∨
    (InUse c c.slf.rd ∧ ¬ InUse c c.slf.rc)

/-! ## The loops over the sites of one group -/

private theorem foldlM_flat {α β γ : Type} (f : β → α → Except PyErr β) (g : γ → List α) (l : List γ) (s : β) :
    (l.flatMap g).foldlM f s = l.foldlM (fun s x => (g x).foldlM f s) s := by
  induction l generalizing s with
  | nil => rfl
  | cons x l ih =>
    rw [List.flatMap_cons, List.foldlM_append, List.foldlM_cons]
    congr 1
    funext s
    exact ih s

private theorem foldlM_keep {α β : Type} (f : β → α → Except PyErr β) (p : α → Bool) (l : List α) (s : β) :
    (l.filter p).foldlM f s = l.foldlM (fun s x => if p x then f s x else .ok s) s := by
  induction l generalizing s with
  | nil => rfl
  | cons x l ih =>
    rw [List.filter_cons, List.foldlM_cons]
    by_cases h : p x = true
    · rw [if_pos h, List.foldlM_cons, if_pos h]
      congr 1
      funext s
      exact ih s
    · rw [if_neg h, if_neg h]
      exact ih s

private theorem foldlM_mapped {α β γ : Type} (f : β → α → Except PyErr β) (g : γ → α) (l : List γ) (s : β) :
    (l.map g).foldlM f s = l.foldlM (fun s x => f s (g x)) s := by
  induction l generalizing s with
  | nil => rfl
  | cons x l ih =>
    rw [List.map_cons, List.foldlM_cons, List.foldlM_cons]
    congr 1
    funext s
    exact ih s

private theorem foldlM_same {α β : Type} {f g : β → α → Except PyErr β} (l : List α) (s : β)
    (h : ∀ s, ∀ x ∈ l, f s x = g s x) : l.foldlM f s = l.foldlM g s := by
  induction l generalizing s with
  | nil => rfl
  | cons x l ih =>
    rw [List.foldlM_cons, List.foldlM_cons, h s x (by simp)]
    congr 1
    funext s
    exact ih s fun s y hy => h s y (List.mem_cons_of_mem _ hy)

/-- The pairs of sites of one group in the order of the loops. -/
private def cells (c : Cfg K) : List (ℕ × ℕ × ℕ) :=
  (List.range c.nb).flatMap fun i => ((List.range c.ns).filter fun a => decide (c.nk i a ≠ 0)).flatMap fun a =>
    (((List.range c.ns).drop a).filter fun b => decide (c.nk i b ≠ 0)).map fun b => (i, a, b)

private theorem selfAll_cells (c : Cfg K) (m : Mats K) :
    selfAll c m = (cells c).foldlM (fun m t => selfCell c.slf t.1 t.2.1 t.2.2 m) m := by
  unfold cells selfAll
  rw [foldlM_flat]
  refine foldlM_same _ _ fun s i _ => ?_
  rw [foldlM_flat, foldlM_keep]
  refine foldlM_same _ _ fun s a _ => ?_
  unfold selfA
  by_cases h : c.nk i a = 0
  · simp [h]
  · simp only [h, if_false, ne_eq, not_false_eq_true, decide_true, if_true]
    rw [foldlM_mapped, foldlM_keep]
    refine foldlM_same _ _ fun s b _ => ?_
    by_cases h' : c.nk i b = 0 <;> simp [h']

private theorem mem_drop_range (n a b : ℕ) : b ∈ (List.range n).drop a ↔ a ≤ b ∧ b < n := by
  rw [List.mem_iff_getElem?]
  simp only [List.getElem?_drop]
  constructor
  · rintro ⟨k, hk⟩
    obtain ⟨h1, h2⟩ := List.getElem?_eq_some_iff.1 hk
    rw [List.getElem_range] at h2
    rw [List.length_range] at h1
    omega
  · rintro ⟨h1, h2⟩
    exact ⟨b - a, by rw [List.getElem?_range (by omega)]; congr 1; omega⟩

private theorem mem_cells (c : Cfg K) (i a b : ℕ) : (i, a, b) ∈ cells c ↔ HasSite c i a ∧ HasSite c i b ∧ a ≤ b := by
  unfold cells HasSite
  simp only [List.mem_flatMap, List.mem_filter, List.mem_map, List.mem_range, mem_drop_range, decide_eq_true_eq,
    Prod.mk.injEq]
  constructor
  · rintro ⟨i', hi, a', ⟨ha, hna⟩, b', ⟨⟨hab, hb⟩, hnb⟩, rfl, rfl, rfl⟩
    exact ⟨⟨hi, ha, hna⟩, ⟨hi, hb, hnb⟩, hab⟩
  · rintro ⟨⟨hi, ha, hna⟩, ⟨_, hb, hnb⟩, hab⟩
    exact ⟨i, hi, a, ⟨ha, hna⟩, b, ⟨⟨hab, hb⟩, hnb⟩, rfl, rfl, rfl⟩

private theorem cells_le (c : Cfg K) : ∀ t ∈ cells c, t.2.1 ≤ t.2.2 := by
  rintro ⟨i, a, b⟩ h
  exact ((mem_cells c i a b).1 h).2.2

omit [Field K] [LinearOrder K] in
private theorem orSwap_entry (f : ℕ → ℕ → Option K) {a b : ℕ} (h : a ≤ b) : orSwap f a b = entryOf f a b := by
  unfold orSwap entryOf
  rw [min_eq_left h, max_eq_right h]

omit [Field K] [LinearOrder K] in
private theorem entry_comm (f : ℕ → ℕ → Option K) (a b : ℕ) : entryOf f a b = entryOf f b a := by
  unfold entryOf
  rw [min_comm, max_comm]

/-- What one pair of sites writes. -/
private def energyAt (L : Lib K ℕ) (t : ℕ × ℕ × ℕ) : Option K :=
  (entryOf (L.eps t.1) t.2.1 t.2.2).map fun ε => if t.2.1 = t.2.2 then -|ε| else ε

private def bondAt (L : Lib K ℕ) (f : ℕ → ℕ → ℕ → Option K) (t : ℕ × ℕ × ℕ) : Option K :=
  (entryOf (L.eps t.1) t.2.1 t.2.2).bind fun _ => entryOf (f t.1) t.2.1 t.2.2

private def write (o : ℕ × ℕ × ℕ → Option K) (A : Arr K) (t : ℕ × ℕ × ℕ) : Arr K :=
  (putOpt A false t.1 t.1 t.2.1 t.2.2 (o t)).1

omit [Field K] [LinearOrder K] in
private theorem putOpt_flag (A : Arr K) (fl : Bool) (i j a b : ℕ) (o : Option K) :
    putOpt A fl i j a b o = ((putOpt A false i j a b o).1, fl || o.isSome) := by
  cases o <;> simp [putOpt]

private theorem selfCell_ok (L : Lib K ℕ) (i a b : ℕ) (hab : a ≤ b) (m : Mats K) :
    (Inconsistent L i a b ∧ selfCell L i a b m = .error .valueError) ∨
      (¬ Inconsistent L i a b ∧ selfCell L i a b m = .ok
        { eps := write (energyAt L) m.eps (i, a, b), vol := write (bondAt L L.vol) m.vol (i, a, b),
          rc := write (bondAt L L.rc) m.rc (i, a, b), rd := write (bondAt L L.rd) m.rd (i, a, b),
          fK := m.fK || (bondAt L L.vol (i, a, b)).isSome, frc := m.frc || (bondAt L L.rc (i, a, b)).isSome,
          frd := m.frd || (bondAt L L.rd (i, a, b)).isSome }) := by
  unfold selfCell Inconsistent
  simp only [orSwap_entry _ hab, energyAt, bondAt, write]
  generalize entryOf (L.eps i) a b = e
  generalize entryOf (L.vol i) a b = k
  generalize entryOf (L.rc i) a b = r
  generalize entryOf (L.rd i) a b = d
  cases e with
  | none => cases k <;> cases r <;> simp [putOpt]
  | some ε => cases k <;> cases r <;> cases d <;> simp [putOpt]

omit [Field K] [LinearOrder K] in
/-- The result of writing a list of pairs. -/
private theorem write_all (o : ℕ × ℕ × ℕ → Option K) (l : List (ℕ × ℕ × ℕ)) (hl : ∀ t ∈ l, t.2.1 ≤ t.2.2) (A : Arr K)
    (i j a b : ℕ) : l.foldl (write o) A i j a b =
      if i = j ∧ (i, min a b, max a b) ∈ l then (o (i, min a b, max a b)).getD (A i j a b) else A i j a b := by
  induction l generalizing A with
  | nil => simp
  | cons t l ih =>
    rw [List.foldl_cons, ih (fun t ht => hl t (List.mem_cons_of_mem _ ht))]
    obtain ⟨i0, a0, b0⟩ := t
    have hab : a0 ≤ b0 := hl (i0, a0, b0) (by simp)
    have hw : write o A (i0, a0, b0) i j a b =
        if i = j ∧ (i, min a b, max a b) = (i0, a0, b0) then (o (i, min a b, max a b)).getD (A i j a b) else A i j a b := by
      have hc : (i = i0 ∧ j = i0 ∧ a = a0 ∧ b = b0) ∨ (i = i0 ∧ j = i0 ∧ a = b0 ∧ b = a0) ↔
          i = j ∧ (i, min a b, max a b) = (i0, a0, b0) := by
        simp only [Prod.mk.injEq]
        constructor
        · rintro (⟨rfl, rfl, rfl, rfl⟩ | ⟨rfl, rfl, rfl, rfl⟩)
          · exact ⟨rfl, rfl, min_eq_left hab, max_eq_right hab⟩
          · exact ⟨rfl, rfl, min_eq_right hab, max_eq_left hab⟩
        · rintro ⟨rfl, rfl, h1, h2⟩
          rcases le_total a b with h | h
          · rw [min_eq_left h] at h1; rw [max_eq_right h] at h2
            exact .inl ⟨rfl, rfl, h1, h2⟩
          · rw [min_eq_right h] at h1; rw [max_eq_left h] at h2
            exact .inr ⟨rfl, rfl, h2, h1⟩
      unfold write
      by_cases hcase : i = j ∧ (i, min a b, max a b) = (i0, a0, b0)
      · rw [if_pos hcase, hcase.2]
        cases ho : o (i0, a0, b0) with
        | none => rfl
        | some v =>
          simp only [putOpt, Option.getD_some]
          rw [put2_eq, if_pos (hc.2 hcase)]
      · rw [if_neg hcase]
        cases ho : o (i0, a0, b0) with
        | none => rfl
        | some v =>
          simp only [putOpt]
          rw [put2_eq, if_neg (fun h => hcase (hc.1 h))]
    rw [hw]
    by_cases hij : i = j
    · by_cases hl' : (i, min a b, max a b) ∈ l
      · by_cases ht : (i, min a b, max a b) = (i0, a0, b0)
        · have hm : (i, min a b, max a b) ∈ (i0, a0, b0) :: l := List.mem_cons_of_mem _ hl'
          rw [if_pos ⟨hij, hl'⟩, if_pos ⟨hij, ht⟩, if_pos ⟨hij, hm⟩]
          cases o (i, min a b, max a b) <;> rfl
        · have hm : (i, min a b, max a b) ∈ (i0, a0, b0) :: l := List.mem_cons_of_mem _ hl'
          rw [if_pos ⟨hij, hl'⟩, if_neg (fun h => ht h.2), if_pos ⟨hij, hm⟩]
      · by_cases ht : (i, min a b, max a b) = (i0, a0, b0)
        · have hm : (i, min a b, max a b) ∈ (i0, a0, b0) :: l := by rw [ht]; simp
          rw [if_neg (fun h => hl' h.2), if_pos ⟨hij, ht⟩, if_pos ⟨hij, hm⟩]
        · have hm : (i, min a b, max a b) ∉ (i0, a0, b0) :: l := by
            rw [List.mem_cons]; exact fun h => h.elim ht hl'
          rw [if_neg (fun h => hl' h.2), if_neg (fun h => ht h.2), if_neg (fun h => hm h.2)]
    · rw [if_neg (fun h => hij h.1), if_neg (fun h => hij h.1), if_neg (fun h => hij h.1)]

/-- The result of the pairs of a list, or the error of one that is inconsistent. -/
private theorem cells_run (L : Lib K ℕ) (l : List (ℕ × ℕ × ℕ)) (hl : ∀ t ∈ l, t.2.1 ≤ t.2.2) (m : Mats K) :
    ((∃ t ∈ l, Inconsistent L t.1 t.2.1 t.2.2) ∧
        l.foldlM (fun m t => selfCell L t.1 t.2.1 t.2.2 m) m = .error .valueError) ∨
      ((∀ t ∈ l, ¬ Inconsistent L t.1 t.2.1 t.2.2) ∧
        l.foldlM (fun m t => selfCell L t.1 t.2.1 t.2.2 m) m = .ok
          { eps := l.foldl (write (energyAt L)) m.eps, vol := l.foldl (write (bondAt L L.vol)) m.vol,
            rc := l.foldl (write (bondAt L L.rc)) m.rc, rd := l.foldl (write (bondAt L L.rd)) m.rd,
            fK := m.fK || l.any fun t => (bondAt L L.vol t).isSome,
            frc := m.frc || l.any fun t => (bondAt L L.rc t).isSome,
            frd := m.frd || l.any fun t => (bondAt L L.rd t).isSome }) := by
  induction l generalizing m with
  | nil => right; simp [pure, Except.pure]
  | cons t l ih =>
    rw [List.foldlM_cons]
    rcases selfCell_ok L t.1 t.2.1 t.2.2 (hl t (by simp)) m with ⟨hbad, e⟩ | ⟨hgood, e⟩
    · left
      exact ⟨⟨t, by simp, hbad⟩, by rw [e]; rfl⟩
    · rw [e]
      rcases ih (fun t ht => hl t (List.mem_cons_of_mem _ ht)) _ with ⟨⟨u, hu, hbad⟩, e'⟩ | ⟨hall, e'⟩
      · left
        exact ⟨⟨u, List.mem_cons_of_mem _ hu, hbad⟩, e'⟩
      · right
        refine ⟨?_, ?_⟩
        · intro u hu
          rcases List.mem_cons.1 hu with rfl | hu
          · exact hgood
          · exact hall u hu
        · refine e'.trans ?_
          simp only [List.foldl_cons, List.any_cons, Bool.or_assoc]

private theorem ownEntry_cell (c : Cfg K) (f : ℕ → ℕ → ℕ → Option K) (i a b : ℕ) :
    ownEntry c f i a b = if (i, min a b, max a b) ∈ cells c then entryOf (f i) (min a b) (max a b) else none := by
  unfold ownEntry
  have h : (i, min a b, max a b) ∈ cells c ↔ HasSite c i a ∧ HasSite c i b := by
    rw [mem_cells]
    rcases le_total a b with h | h
    · rw [min_eq_left h, max_eq_right h]; exact ⟨fun h => ⟨h.1, h.2.1⟩, fun k => ⟨k.1, k.2, h⟩⟩
    · rw [min_eq_right h, max_eq_left h]; exact ⟨fun h => ⟨h.2.1, h.1⟩, fun k => ⟨k.2, k.1, h⟩⟩
  have he : entryOf (f i) (min a b) (max a b) = entryOf (f i) a b := by
    rcases le_total a b with h | h
    · rw [min_eq_left h, max_eq_right h]
    · rw [min_eq_right h, max_eq_left h, entry_comm]
  rw [he]
  by_cases hc : HasSite c i a ∧ HasSite c i b
  · rw [if_pos hc, if_pos (h.2 hc)]
  · rw [if_neg hc, if_neg (fun k => hc (h.1 k))]

private theorem min_eq_max_iff' (a b : ℕ) : min a b = max a b ↔ a = b := by omega

private theorem energy_cells (c : Cfg K) (i j a b : ℕ) :
    (cells c).foldl (write (energyAt c.slf)) (fun _ _ _ _ => 0) i j a b = ownEnergy c i j a b := by
  rw [write_all _ _ (cells_le c)]
  unfold ownEnergy energyAt
  rw [ownEntry_cell]
  by_cases hij : i = j
  · by_cases hm : (i, min a b, max a b) ∈ cells c
    · rw [if_pos ⟨hij, hm⟩, if_pos hij, if_pos hm]
      simp only [min_eq_max_iff']
    · rw [if_neg (fun h => hm h.2), if_pos hij, if_neg hm]; rfl
  · rw [if_neg (fun h => hij h.1), if_neg hij]

private theorem bond_cells (c : Cfg K) (f : ℕ → ℕ → ℕ → Option K) (i j a b : ℕ) :
    (cells c).foldl (write (bondAt c.slf f)) (fun _ _ _ _ => 0) i j a b = ownBond c f i j a b := by
  rw [write_all _ _ (cells_le c)]
  unfold ownBond bondAt
  rw [ownEntry_cell, ownEntry_cell]
  by_cases hij : i = j
  · by_cases hm : (i, min a b, max a b) ∈ cells c
    · rw [if_pos ⟨hij, hm⟩, if_pos hij, if_pos hm, if_pos hm]
    · rw [if_neg (fun h => hm h.2), if_pos hij, if_neg hm]; rfl
  · rw [if_neg (fun h => hij h.1), if_neg hij]

private theorem flag_cells (c : Cfg K) (f : ℕ → ℕ → ℕ → Option K) :
    ((cells c).any fun t => (bondAt c.slf f t).isSome) = true ↔
      ∃ i a b, ownEntry c c.slf.eps i a b ≠ none ∧ ownEntry c f i a b ≠ none := by
  rw [List.any_eq_true]
  constructor
  · rintro ⟨⟨i, a, b⟩, hm, hs⟩
    have hab := cells_le c _ hm
    simp only at hab
    refine ⟨i, a, b, ?_⟩
    rw [ownEntry_cell, ownEntry_cell, min_eq_left hab, max_eq_right hab, if_pos hm, if_pos hm]
    unfold bondAt at hs
    simp only at hs
    cases h1 : entryOf (c.slf.eps i) a b with
    | none => rw [h1] at hs; simp at hs
    | some _ =>
      cases h2 : entryOf (f i) a b with
      | none => rw [h1, h2] at hs; simp at hs
      | some _ => simp
  · rintro ⟨i, a, b, h1, h2⟩
    rw [ownEntry_cell] at h1 h2
    by_cases hm : (i, min a b, max a b) ∈ cells c
    · rw [if_pos hm] at h1 h2
      refine ⟨_, hm, ?_⟩
      unfold bondAt
      simp only
      obtain ⟨x, hx⟩ := Option.ne_none_iff_exists'.1 h1
      obtain ⟨y, hy⟩ := Option.ne_none_iff_exists'.1 h2
      rw [hx, hy]; rfl
    · rw [if_neg hm] at h1; exact absurd rfl h1

/-- **C147, sites of one group.**  For any groups and sites, the loop over the groups refuses the libraries exactly if the
entries of two sites of a group are inconsistent; otherwise the matrices hold the entries of the groups for the sites they
have, and zero everywhere else, and a kind of bonding parameter is in use if it is given with an energy somewhere. -/
theorem c147_own (c : Cfg K) :
    ((∃ i a b, HasSite c i a ∧ HasSite c i b ∧ Inconsistent c.slf i a b) ∧ selfAll c Mats.zero = .error .valueError) ∨
      ((∀ i a b, HasSite c i a → HasSite c i b → ¬ Inconsistent c.slf i a b) ∧ ∃ m, selfAll c Mats.zero = .ok m ∧
        m.eps = ownEnergy c ∧ m.vol = ownBond c c.slf.vol ∧ m.rc = ownBond c c.slf.rc ∧ m.rd = ownBond c c.slf.rd ∧
        (m.fK = true ↔ ∃ i a b, ownEntry c c.slf.eps i a b ≠ none ∧ ownEntry c c.slf.vol i a b ≠ none) ∧
        (m.frc = true ↔ ∃ i a b, ownEntry c c.slf.eps i a b ≠ none ∧ ownEntry c c.slf.rc i a b ≠ none) ∧
        (m.frd = true ↔ ∃ i a b, ownEntry c c.slf.eps i a b ≠ none ∧ ownEntry c c.slf.rd i a b ≠ none)) := by
  rw [selfAll_cells]
  rcases cells_run c.slf (cells c) (cells_le c) Mats.zero with ⟨⟨⟨i, a, b⟩, hm, hbad⟩, e⟩ | ⟨hall, e⟩
  · left
    have := (mem_cells c i a b).1 hm
    exact ⟨⟨i, a, b, this.1, this.2.1, hbad⟩, e⟩
  · right
    refine ⟨?_, _, e, ?_, ?_, ?_, ?_, ?_, ?_, ?_⟩
    · intro i a b ha hb hbad
      rcases le_total a b with h | h
      · exact hall (i, a, b) ((mem_cells c i a b).2 ⟨ha, hb, h⟩) hbad
      · refine hall (i, b, a) ((mem_cells c i b a).2 ⟨hb, ha, h⟩) ?_
        unfold Inconsistent at hbad ⊢
        simp only [entry_comm _ b a]
        exact hbad
    · funext i j a b; exact energy_cells c i j a b
    · funext i j a b; exact bond_cells c _ i j a b
    · funext i j a b; exact bond_cells c _ i j a b
    · funext i j a b; exact bond_cells c _ i j a b
    · simpa [Mats.zero] using flag_cells c c.slf.vol
    · simpa [Mats.zero] using flag_cells c c.slf.rc
    · simpa [Mats.zero] using flag_cells c c.slf.rd

/-! ## The loops over two groups, without entries for pairs of groups -/

/-- The assignments of one pair of sites of two groups, or of two sites of one group. -/
private def missM (sqrt cbrt : K → K) (c : Cfg K) (m : Mats K) (q : ℕ × ℕ × ℕ × ℕ) : Mats K :=
  { m with
    eps := combEps sqrt c m.eps q.1 q.2.2.2 q.2.1 q.2.2.1
    vol := combVol (meanCube cbrt) m.vol m.fK q.1 q.2.2.2 q.2.1 q.2.2.1
    rc := combVol mean m.rc m.frc q.1 q.2.2.2 q.2.1 q.2.2.1
    rd := combVol mean m.rd m.frd q.1 q.2.2.2 q.2.1 q.2.2.1 }

/-- The second groups that are reached. -/
private def seconds (c : Cfg K) (i a b : ℕ) (l : List ℕ) : List ℕ :=
  l.filter fun j => decide (¬ (i = j ∧ a = b) ∧ c.nk j b ≠ 0)

private theorem crossJ_loop (sqrt cbrt : K → K) (c : Cfg K) (hx : ∀ p a b, c.cross.eps p a b = none) (i a0 b0 : ℕ)
    (l : List ℕ) (st : CrossSt K) : ∃ key, l.foldlM (crossJ sqrt cbrt c i a0 b0) st =
      .ok { m := ((seconds c i st.a st.b l).map fun j => (i, st.a, st.b, j)).foldl (missM sqrt cbrt c) st.m,
            a := st.a, b := st.b, key := key } := by
  induction l generalizing st with
  | nil => exact ⟨st.key, rfl⟩
  | cons j l ih =>
    rw [List.foldlM_cons]
    unfold crossJ seconds
    rw [hx]
    by_cases h1 : i = j ∧ st.a = st.b
    · rw [if_pos h1, List.filter_cons_of_neg (by simp only [decide_eq_true_eq]; exact fun h => h.1 h1)]
      exact ih st
    · rw [if_neg h1]
      simp only
      by_cases h2 : c.nk j st.b ≠ 0
      · rw [if_pos h2, List.filter_cons_of_pos (by simp only [decide_eq_true_eq]; exact ⟨h1, h2⟩)]
        exact ih (crossMiss sqrt cbrt c i j st)
      · rw [if_neg h2, List.filter_cons_of_neg (by simp only [decide_eq_true_eq]; exact fun h => h2 h.2)]
        exact ih st

/-- The pairs that are reached. -/
private def quads (c : Cfg K) : List (ℕ × ℕ × ℕ × ℕ) :=
  (List.range c.nb).flatMap fun i =>
    ((List.range c.ns).filter fun a => decide (c.nk i a ≠ 0)).flatMap fun a =>
      (List.range c.ns).flatMap fun b => (seconds c i a b (List.range c.nb)).map fun j => (i, a, b, j)

private theorem mem_quads (c : Cfg K) (i a b j : ℕ) :
    (i, a, b, j) ∈ quads c ↔ HasSite c i a ∧ HasSite c j b ∧ ¬ (i = j ∧ a = b) := by
  unfold quads seconds HasSite
  simp only [List.mem_flatMap, List.mem_filter, List.mem_map, List.mem_range, decide_eq_true_eq, Prod.mk.injEq]
  constructor
  · rintro ⟨i', hi, a', ⟨ha, hna⟩, b', hb, j', ⟨hj, hne, hnb⟩, rfl, rfl, rfl, rfl⟩
    exact ⟨⟨hi, ha, hna⟩, ⟨hj, hb, hnb⟩, hne⟩
  · rintro ⟨⟨hi, ha, hna⟩, ⟨hj, hb, hnb⟩, hne⟩
    exact ⟨i, hi, a, ⟨ha, hna⟩, b, hb, j, ⟨hj, hne, hnb⟩, rfl, rfl, rfl, rfl⟩

private theorem foldlM_pure {α β : Type} (f : β → α → Except PyErr β) (g : β → α → β) (h : ∀ s x, f s x = .ok (g s x))
    (l : List α) (s : β) : l.foldlM f s = .ok (l.foldl g s) := by
  induction l generalizing s with
  | nil => rfl
  | cons x l ih => rw [List.foldlM_cons, h, List.foldl_cons]; exact ih _

private theorem crossB_loop (sqrt cbrt : K → K) (c : Cfg K) (hx : ∀ p a b, c.cross.eps p a b = none) (i a : ℕ)
    (l : List ℕ) (m : Mats K) : l.foldlM (crossB sqrt cbrt c i a) (m, a) =
      .ok ((l.flatMap fun b => (seconds c i a b (List.range c.nb)).map fun j => (i, a, b, j)).foldl
        (missM sqrt cbrt c) m, a) := by
  induction l generalizing m with
  | nil => rfl
  | cons b l ih =>
    rw [List.foldlM_cons, List.flatMap_cons, List.foldl_append]
    unfold crossB
    obtain ⟨key, e⟩ := crossJ_loop sqrt cbrt c hx i a b (List.range c.nb) { m := m, a := a, b := b, key := (a, b) }
    rw [e]
    exact ih _

private theorem crossAll_quads (sqrt cbrt : K → K) (c : Cfg K) (hx : ∀ p a b, c.cross.eps p a b = none) (m : Mats K) :
    crossAll sqrt cbrt c m = .ok ((quads c).foldl (missM sqrt cbrt c) m) := by
  have hA : ∀ i m a, crossA sqrt cbrt c i m a = .ok (if c.nk i a ≠ 0 then
      ((List.range c.ns).flatMap fun b => (seconds c i a b (List.range c.nb)).map fun j => (i, a, b, j)).foldl
        (missM sqrt cbrt c) m else m) := by
    intro i m a
    unfold crossA
    by_cases h : c.nk i a = 0
    · rw [if_pos h, if_neg (not_not.2 h)]
    · rw [if_neg h, if_pos h, crossB_loop sqrt cbrt c hx]
      rfl
  unfold crossAll
  rw [foldlM_pure _ _ (fun m i => foldlM_pure _ _ (hA i) (List.range c.ns) m)]
  unfold quads
  rw [List.foldl_flatMap]
  congr 2
  funext m i
  rw [List.foldl_flatMap, List.foldl_filter]
  congr 1
  funext m a
  simp only [decide_eq_true_eq]

/-- What a list of pairs leaves in a symmetric array when each pair fills its entry if that is zero. -/
private theorem fill_all (S : Arr K) (hS : Symm S) (val : Arr K) (hval : Symm val)
    (f : Arr K → ℕ × ℕ × ℕ × ℕ → Arr K) (l : List (ℕ × ℕ × ℕ × ℕ))
    (hf : ∀ A : Arr K, Symm A → (∀ i a, A i i a a = S i i a a) → ∀ q ∈ l,
      f A q = if A q.1 q.2.2.2 q.2.1 q.2.2.1 = 0 then
        A.put2 q.1 q.2.2.2 q.2.1 q.2.2.1 (val q.1 q.2.2.2 q.2.1 q.2.2.1) else A)
    (hl : ∀ q ∈ l, ¬ (q.1 = q.2.2.2 ∧ q.2.1 = q.2.2.1)) (i j a b : ℕ) :
    l.foldl f S i j a b =
      if S i j a b = 0 ∧ ((i, a, b, j) ∈ l ∨ (j, b, a, i) ∈ l) then val i j a b else S i j a b := by
  suffices h : ∀ k : List (ℕ × ℕ × ℕ × ℕ), (∀ q ∈ k, q ∈ l) → ∀ A : Arr K, Symm A → ∀ d : List (ℕ × ℕ × ℕ × ℕ),
      (∀ q ∈ d, ¬ (q.1 = q.2.2.2 ∧ q.2.1 = q.2.2.1)) →
      (∀ i j a b, A i j a b =
        if S i j a b = 0 ∧ ((i, a, b, j) ∈ d ∨ (j, b, a, i) ∈ d) then val i j a b else S i j a b) →
      ∀ i j a b, k.foldl f A i j a b =
        if S i j a b = 0 ∧ ((i, a, b, j) ∈ d ++ k ∨ (j, b, a, i) ∈ d ++ k) then val i j a b else S i j a b by
    simpa using h l (fun _ h => h) S hS [] (by simp) (by simp) i j a b
  intro k
  induction k with
  | nil => intro _ A _ d _ h i j a b; rw [List.append_nil]; exact h i j a b
  | cons q k ih =>
    intro hk A hA d hd h i j a b
    obtain ⟨i0, a0, b0, j0⟩ := q
    have hq := hk (i0, a0, b0, j0) (by simp)
    have hne : ¬ (i0 = j0 ∧ a0 = b0) := hl _ hq
    have hdiag : ∀ i a, A i i a a = S i i a a := by
      intro i a
      rw [h]
      refine if_neg ?_
      rintro ⟨_, hm | hm⟩ <;> exact hd _ hm ⟨rfl, rfl⟩
    have hstep := hf A hA hdiag _ hq
    simp only at hstep
    rw [List.foldl_cons]
    have hfA : Symm (f A (i0, a0, b0, j0)) := by
      rw [hstep]
      split
      · exact symm_put2 hA _ _ _ _ _
      · exact hA
    have hd' : ∀ q ∈ d ++ [(i0, a0, b0, j0)], ¬ (q.1 = q.2.2.2 ∧ q.2.1 = q.2.2.1) := by
      intro q hqm
      rcases List.mem_append.1 hqm with hqm | hqm
      · exact hd q hqm
      · rw [List.mem_singleton.1 hqm]; exact hne
    have := ih (fun q hq => hk q (List.mem_cons_of_mem _ hq)) (f A (i0, a0, b0, j0)) hfA (d ++ [(i0, a0, b0, j0)]) hd' ?_
      i j a b
    · rw [this]
      simp only [List.append_assoc, List.singleton_append]
    · clear ih
      intro i j a b
      have key : ((i, a, b, j) ∈ d ++ [(i0, a0, b0, j0)] ∨ (j, b, a, i) ∈ d ++ [(i0, a0, b0, j0)]) ↔
          ((i, a, b, j) ∈ d ∨ (j, b, a, i) ∈ d) ∨
            ((i = i0 ∧ j = j0 ∧ a = a0 ∧ b = b0) ∨ (i = j0 ∧ j = i0 ∧ a = b0 ∧ b = a0)) := by
        simp only [List.mem_append, List.mem_singleton, Prod.mk.injEq]
        tauto
      rw [hstep]
      by_cases hhit : (i = i0 ∧ j = j0 ∧ a = a0 ∧ b = b0) ∨ (i = j0 ∧ j = i0 ∧ a = b0 ∧ b = a0)
      · have hv : val i0 j0 a0 b0 = val i j a b := by
          rcases hhit with ⟨rfl, rfl, rfl, rfl⟩ | ⟨rfl, rfl, rfl, rfl⟩
          · rfl
          · exact hval _ _ _ _
        have hAe : A i0 j0 a0 b0 = A i j a b := by
          rcases hhit with ⟨rfl, rfl, rfl, rfl⟩ | ⟨rfl, rfl, rfl, rfl⟩
          · rfl
          · exact hA _ _ _ _
        by_cases hz : A i0 j0 a0 b0 = 0
        · rw [if_pos hz, put2_eq, if_pos hhit, hv]
          rw [hAe, h] at hz
          by_cases hS0 : S i j a b = 0
          · rw [if_pos ⟨hS0, key.2 (.inr hhit)⟩]
          · rw [if_neg (fun h => hS0 h.1)] at hz
            exact absurd hz hS0
        · rw [if_neg hz]
          rw [hAe] at hz
          by_cases hS0 : S i j a b = 0
          · rw [if_pos ⟨hS0, key.2 (.inr hhit)⟩]
            rw [h] at hz ⊢
            by_cases hm : (i, a, b, j) ∈ d ∨ (j, b, a, i) ∈ d
            · rw [if_pos ⟨hS0, hm⟩]
            · rw [if_neg (fun h => hm h.2)] at hz
              exact absurd hS0 hz
          · rw [if_neg (fun h => hS0 h.1), h, if_neg (fun h => hS0 h.1)]
      · have hsame : (if A i0 j0 a0 b0 = 0 then A.put2 i0 j0 a0 b0 (val i0 j0 a0 b0) else A) i j a b = A i j a b := by
          split
          · rw [put2_eq, if_neg hhit]
          · rfl
        rw [hsame, h]
        simp only [key]
        simp only [hhit, or_false]

private theorem missM_fold (sqrt cbrt : K → K) (c : Cfg K) (l : List (ℕ × ℕ × ℕ × ℕ)) (m : Mats K) :
    l.foldl (missM sqrt cbrt c) m =
      { m with
        eps := l.foldl (fun A q => combEps sqrt c A q.1 q.2.2.2 q.2.1 q.2.2.1) m.eps
        vol := l.foldl (fun A q => combVol (meanCube cbrt) A m.fK q.1 q.2.2.2 q.2.1 q.2.2.1) m.vol
        rc := l.foldl (fun A q => combVol mean A m.frc q.1 q.2.2.2 q.2.1 q.2.2.1) m.rc
        rd := l.foldl (fun A q => combVol mean A m.frd q.1 q.2.2.2 q.2.1 q.2.2.1) m.rd } := by
  induction l generalizing m with
  | nil => rfl
  | cons q l ih => rw [List.foldl_cons, ih]; rfl

private theorem quads_swap (c : Cfg K) (i a b j : ℕ) :
    ((i, a, b, j) ∈ quads c ∨ (j, b, a, i) ∈ quads c) ↔ Meets c i j a b := by
  unfold Meets
  rw [mem_quads, mem_quads]
  constructor
  · rintro (h | ⟨h1, h2, h3⟩)
    · exact h
    · exact ⟨h2, h1, fun h => h3 ⟨h.1.symm, h.2.symm⟩⟩
  · exact fun h => .inl h

private theorem quads_ne (c : Cfg K) : ∀ q ∈ quads c, ¬ (q.1 = q.2.2.2 ∧ q.2.1 = q.2.2.1) := by
  rintro ⟨i, a, b, j⟩ h
  exact ((mem_quads c i a b j).1 h).2.2

omit [LinearOrder K] in
private theorem ownEntry_comm (c : Cfg K) (f : ℕ → ℕ → ℕ → Option K) (i a b : ℕ) :
    ownEntry c f i a b = ownEntry c f i b a := by
  unfold ownEntry
  rw [entry_comm]
  by_cases h : HasSite c i a ∧ HasSite c i b
  · rw [if_pos h, if_pos h.symm]
  · rw [if_neg h, if_neg (fun k => h k.symm)]

private theorem ownEnergy_symm (c : Cfg K) : Symm (ownEnergy c) := by
  intro i j a b
  unfold ownEnergy
  by_cases h : i = j
  · subst h
    rw [if_pos rfl, if_pos rfl, ownEntry_comm]
    simp only [eq_comm (a := a) (b := b)]
  · rw [if_neg h, if_neg (fun k => h k.symm)]

omit [LinearOrder K] in
private theorem ownBond_symm (c : Cfg K) (f : ℕ → ℕ → ℕ → Option K) : Symm (ownBond c f) := by
  intro i j a b
  unfold ownBond
  by_cases h : i = j
  · subst h
    rw [if_pos rfl, if_pos rfl, ownEntry_comm, ownEntry_comm c f]
  · rw [if_neg h, if_neg (fun k => h k.symm)]

private theorem combinedEnergy_symm (sqrt : K → K) (c : Cfg K) : Symm (combinedEnergy sqrt c) := by
  intro i j a b
  unfold combinedEnergy
  cases c.slf.eps i a a <;> cases c.slf.eps j b b <;> simp only
  rename_i x y
  rw [mul_comm |x| |y|, mul_comm x y]

private theorem energy_self (c : Cfg K) {i a : ℕ} (h : HasSite c i a) {ε : K} (he : c.slf.eps i a a = some ε) :
    ownEnergy c i i a a = -|ε| := by
  unfold ownEnergy ownEntry entryOf
  rw [if_pos rfl, if_pos ⟨h, h⟩, min_self, max_self, he]
  simp

omit [LinearOrder K] in
private theorem put2_zero {A : Arr K} (hA : Symm A) {i j a b : ℕ} (h : A i j a b = 0) : A.put2 i j a b 0 = A := by
  funext i' j' a' b'
  rw [put2_eq]
  split
  · rename_i hc
    rcases hc with ⟨rfl, rfl, rfl, rfl⟩ | ⟨rfl, rfl, rfl, rfl⟩
    · exact h.symm
    · rw [hA]; exact h.symm
  · rfl

open Classical in
private theorem energies (sqrt : K → K) (c : Cfg K) (i j a b : ℕ) :
    (quads c).foldl (fun A q => combEps sqrt c A q.1 q.2.2.2 q.2.1 q.2.2.1) (ownEnergy c) i j a b =
      if ownEnergy c i j a b = 0 ∧ Meets c i j a b then combinedEnergy sqrt c i j a b else ownEnergy c i j a b := by
  rw [fill_all _ (ownEnergy_symm c) _ (combinedEnergy_symm sqrt c) _ _ _ (quads_ne c)]
  · simp only [quads_swap]
  · rintro A hA hdiag ⟨i, a, b, j⟩ hq
    obtain ⟨ha, hb, _⟩ := (mem_quads c i a b j).1 hq
    simp only
    unfold combEps combinedEnergy
    cases h1 : c.slf.eps i a a with
    | none =>
      simp only
      split
      · rename_i h; exact (put2_zero hA h).symm
      · rfl
    | some ea =>
      cases h2 : c.slf.eps j b b with
      | none =>
        simp only
        split
        · rename_i h; exact (put2_zero hA h).symm
        · rfl
      | some eb =>
        simp only
        rw [hA j i b a, hdiag, hdiag, energy_self c ha h1, energy_self c hb h2]
        simp only [neg_mul_neg, neg_one_mul, signOf]

open Classical in
private theorem bonds (f : K → K → K) (hf : ∀ x y, f x y = f y x) (c : Cfg K) (g : ℕ → ℕ → ℕ → Option K) (flag : Bool)
    (i j a b : ℕ) :
    (quads c).foldl (fun A q => combVol f A flag q.1 q.2.2.2 q.2.1 q.2.2.1) (ownBond c g) i j a b =
      if flag = true ∧ ownBond c g i j a b = 0 ∧ Meets c i j a b then
        f (ownBond c g i i a a) (ownBond c g j j b b) else ownBond c g i j a b := by
  cases flag with
  | false =>
    have : ∀ (l : List (ℕ × ℕ × ℕ × ℕ)) (A : Arr K),
        l.foldl (fun A q => combVol f A false q.1 q.2.2.2 q.2.1 q.2.2.1) A = A := by
      intro l
      induction l with
      | nil => intro A; rfl
      | cons q l ih => intro A; rw [List.foldl_cons, ih]; rfl
    rw [this, if_neg (fun h => Bool.false_ne_true h.1)]
  | true =>
    rw [fill_all _ (ownBond_symm c g) (fun i j a b => f (ownBond c g i i a a) (ownBond c g j j b b))
      (fun i j a b => hf _ _) _ _ _ (quads_ne c)]
    · simp only [quads_swap, true_and]
    · rintro A hA hdiag ⟨i, a, b, j⟩ hq
      simp only [combVol, Bool.true_and, decide_eq_true_eq, hdiag]

open Classical in
/-- **C147.**  Without entries for pairs of groups, for any groups and sites: the libraries are refused exactly if they are
inconsistent, and otherwise every entry of every matrix is the one of the group, or the combination of those of the two
sites with themselves if there is none. -/
theorem c147_run (sqrt cbrt : K → K) (c : Cfg K) (hx : ∀ p a b, c.cross.eps p a b = none) :
    (Refused c ∧ calcAssoc sqrt cbrt c = .error .valueError) ∨
      (¬ Refused c ∧ ∃ m, calcAssoc sqrt cbrt c = .ok m ∧
        (m.fK = true ↔ InUse c c.slf.vol) ∧ (m.frc = true ↔ InUse c c.slf.rc) ∧ (m.frd = true ↔ InUse c c.slf.rd) ∧
        ∀ i j a b,
          m.eps i j a b = (if ownEnergy c i j a b = 0 ∧ Meets c i j a b then combinedEnergy sqrt c i j a b
            else ownEnergy c i j a b) ∧
          m.vol i j a b = combinedBond c c.slf.vol (fun x y => ((cbrt x + cbrt y) / 2) ^ 3) i j a b ∧
          m.rc i j a b = combinedBond c c.slf.rc (fun x y => (x + y) / 2) i j a b ∧
          m.rd i j a b = combinedBond c c.slf.rd (fun x y => (x + y) / 2) i j a b) := by
  unfold calcAssoc
  rcases c147_own c with ⟨hbad, e⟩ | ⟨hgood, m, e, h1, h2, h3, h4, f1, f2, f3⟩
  · left
    exact ⟨.inl hbad, by rw [e]; rfl⟩
  · rw [e]
    have e2 := crossAll_quads sqrt cbrt c hx m
    have hI1 : m.fK = true ↔ InUse c c.slf.vol := f1
    have hI2 : m.frc = true ↔ InUse c c.slf.rc := f2
    have hI3 : m.frd = true ↔ InUse c c.slf.rd := f3
    have hbind : (do
        let m ← (Except.ok m : Except PyErr (Mats K))
        let m ← crossAll sqrt cbrt c m
        if (m.fK && m.frc) = true then Except.error PyErr.valueError
          else if (m.frd && !m.frc) = true then Except.error PyErr.valueError else Except.ok m) =
        (if (m.fK && m.frc) = true then Except.error PyErr.valueError
          else if (m.frd && !m.frc) = true then Except.error PyErr.valueError
          else Except.ok ((quads c).foldl (missM sqrt cbrt c) m)) := by
      simp only [bind, Except.bind, e2]
      rw [missM_fold]
    rw [hbind]
    by_cases r1 : (m.fK && m.frc) = true
    · left
      rw [if_pos r1]
      rw [Bool.and_eq_true] at r1
      exact ⟨.inr (.inl ⟨hI1.1 r1.1, hI2.1 r1.2⟩), rfl⟩
    · rw [if_neg r1]
      by_cases r2 : (m.frd && !m.frc) = true
      · left
        rw [if_pos r2]
        rw [Bool.and_eq_true, Bool.not_eq_true'] at r2
        refine ⟨.inr (.inr ⟨hI3.1 r2.1, fun h => ?_⟩), rfl⟩
        rw [hI2.2 h] at r2
        exact absurd r2.2 (by decide)
      · right
        rw [if_neg r2]
        refine ⟨?_, _, rfl, ?_⟩
        · rintro (⟨i, a, b, ha, hb, hbad⟩ | ⟨u1, u2⟩ | ⟨u3, u2⟩)
          · exact hgood i a b ha hb hbad
          · exact r1 (by rw [hI1.2 u1, hI2.2 u2]; rfl)
          · refine r2 ?_
            have : m.frc = false := by
              cases hh : m.frc
              · rfl
              · exact absurd (hI2.1 hh) u2
            rw [hI3.2 u3, this]; rfl
        · rw [missM_fold]
          refine ⟨hI1, hI2, hI3, fun i j a b => ⟨?_, ?_, ?_, ?_⟩⟩
          · simp only [h1]; exact energies sqrt c i j a b
          · simp only [h2, combinedBond, ← hI1]
            exact bonds _ (fun x y => by unfold meanCube; rw [add_comm]) c _ _ i j a b
          · simp only [h3, combinedBond, ← hI2]
            exact bonds _ (fun x y => by unfold mean; rw [add_comm]) c _ _ i j a b
          · simp only [h4, combinedBond, ← hI3]
            exact bonds _ (fun x y => by unfold mean; rw [add_comm]) c _ _ i j a b

/-- **C147, no entry of a site with itself.**  If no group has an energy of a site with itself, nothing is combined: the
energies are those of the groups, and sites of different groups do not associate. -/
theorem c147_only_own (sqrt cbrt : K → K) (c : Cfg K) (hx : ∀ p a b, c.cross.eps p a b = none)
    (hself : ∀ i a, c.slf.eps i a a = none) {m : Mats K} (h : calcAssoc sqrt cbrt c = .ok m) :
    m.eps = ownEnergy c ∧ ∀ i j a b, i ≠ j → m.eps i j a b = 0 := by
  rcases c147_run sqrt cbrt c hx with ⟨_, e⟩ | ⟨_, m', e, _, _, _, hm⟩
  · rw [h] at e; cases e
  · rw [h] at e
    cases e
    have key : m.eps = ownEnergy c := by
      funext i j a b
      rw [(hm i j a b).1]
      split
      · rename_i h0
        rw [h0.1]
        unfold combinedEnergy
        rw [hself]
      · rfl
    refine ⟨key, fun i j a b hij => ?_⟩
    rw [key]
    unfold ownEnergy
    rw [if_neg hij]

end

/-! ## A case -/

/-- Two groups with the sites 0 and 1: the first has both, the second only site 1.  The first has an energy between its
sites, the second one of its site with itself, each with a bonding volume. -/
def runGroups : Cfg ℚ where
  nb := 2
  ns := 2
  nk := fun i a => if i = 0 then 2 else if a = 1 then 1 else 0
  slf :=
    { eps := fun i a b => if i = 0 ∧ a = 1 ∧ b = 0 then some 7 else if i = 1 ∧ a = 1 ∧ b = 1 then some 9 else
        if i = 0 ∧ a = 1 ∧ b = 1 then some (-4) else none
      vol := fun i a b => if i = 0 ∧ a = 1 ∧ b = 0 then some 3 else if i = 1 ∧ a = 1 ∧ b = 1 then some 8 else
        if i = 0 ∧ a = 1 ∧ b = 1 then some 1 else none
      rc := fun _ _ _ => none
      rd := fun _ _ _ => none }
  cross := { eps := fun _ _ _ => none, vol := fun _ _ _ => none, rc := fun _ _ _ => none, rd := fun _ _ _ => none }

/-- The case is accepted; the energy between the sites 1 of the two groups is combined, `sqrt (4 * 9)`. -/
example : (match calcAssoc (fun x => if x = 36 then 6 else 0) (fun x => if x = 8 then 2 else x) runGroups with
    | .ok m => some (m.eps 0 0 0 1, m.eps 0 0 1 1, m.eps 1 1 1 1, m.eps 0 1 1 1, m.eps 1 0 1 1, m.vol 0 1 1 1)
    | .error _ => none) = some (7, -4, -9, 6, 6, 27 / 8) := by decide +kernel

example : ∀ p a b, runGroups.cross.eps p a b = none := fun _ _ _ => rfl

/-- `c147_run` gives the same. -/
example : ¬ Refused runGroups ∧ combinedEnergy (fun x => if x = 36 then 6 else 0) runGroups 0 1 1 1 = 6 := by
  constructor
  · rcases c147_run (fun x => x) (fun x => x) runGroups (fun _ _ _ => rfl) with ⟨_, e⟩ | ⟨h, _⟩
    · exact absurd e (by
        have : (match calcAssoc (fun x => x) (fun x => x) runGroups with | .ok _ => true | .error _ => false) = true := by
          decide +kernel
        intro e
        rw [e] at this
        exact absurd this (by decide))
    · exact h
  · simp only [combinedEnergy, runGroups, signOf]
    norm_num

end Verif.Props
