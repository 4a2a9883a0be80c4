import Verif.Model.AssocMatrices
import Mathlib.Data.List.Basic
import Mathlib.Data.List.Nodup
import Mathlib.Data.List.Lex
import Mathlib.Data.Prod.Lex
import Mathlib.Tactic.Linarith
import Mathlib.Algebra.Order.Field.Rat

/-!
# C23, C24, C25, C65, C67: association sites and association matrices
-/

namespace Verif.Props
open Verif.Assoc

/-! ## C23 -/

section
variable {K : Type} [Zero K] [DecidableEq K]

theorem mem_nzPos (bead : List K) (a : ℕ) :
    a ∈ (bead.zipIdx.filter fun p => p.1 ≠ 0).map (fun p => p.2) ↔ ∃ v, bead[a]? = some v ∧ v ≠ 0 := by
  simp only [List.mem_map, List.mem_filter, decide_eq_true_eq, ne_eq]
  constructor
  · rintro ⟨⟨v, a'⟩, ⟨h1, h2⟩, rfl⟩
    exact ⟨v, List.mem_zipIdx_iff_getElem?.1 h1, h2⟩
  · rintro ⟨v, h1, h2⟩
    exact ⟨(v, a), ⟨List.mem_zipIdx_iff_getElem?.2 h1, h2⟩, rfl⟩

/-- **C23** (exactly the sites present). -/
theorem c23_mem (nk comp : List (List K)) (i k a : ℕ) :
    (i, k, a) ∈ assocSiteIndices nk comp ↔
      (∃ row v, comp[i]? = some row ∧ row[k]? = some v ∧ v ≠ 0) ∧
        ∃ bead w, nk[k]? = some bead ∧ bead[a]? = some w ∧ w ≠ 0 := by
  have hb : a ∈ (beadSites nk).getD k [] ↔
      ∃ bead w, nk[k]? = some bead ∧ bead[a]? = some w ∧ w ≠ 0 := by
    unfold beadSites
    rw [List.getD_eq_getElem?_getD, List.getElem?_map]
    cases h : nk[k]? with
    | none => simp
    | some bead =>
      simp only [Option.map_some, Option.getD_some, Option.some.injEq]
      rw [mem_nzPos]
      constructor
      · rintro ⟨v, h⟩; exact ⟨bead, v, rfl, h⟩
      · rintro ⟨_, w, rfl, h⟩; exact ⟨w, h⟩
  unfold assocSiteIndices
  simp only [List.mem_flatMap]
  constructor
  · rintro ⟨⟨row, i'⟩, hi, ⟨⟨v, k'⟩, hk, h⟩⟩
    split at h
    · rename_i hv
      simp only [List.mem_map, Prod.mk.injEq] at h
      obtain ⟨a', ha, rfl, rfl, rfl⟩ := h
      exact ⟨⟨row, v, List.mem_zipIdx_iff_getElem?.1 hi, List.mem_zipIdx_iff_getElem?.1 hk, hv⟩,
        hb.1 ha⟩
    · simp at h
  · rintro ⟨⟨row, v, hi, hk, hv⟩, h⟩
    refine ⟨(row, i), List.mem_zipIdx_iff_getElem?.2 hi, (v, k), List.mem_zipIdx_iff_getElem?.2 hk, ?_⟩
    rw [if_pos hv]
    exact List.mem_map.2 ⟨a, hb.2 h, rfl⟩

/-- Lexicographic order of triples. -/
def lex3 (p q : ℕ × ℕ × ℕ) : Prop :=
  p.1 < q.1 ∨ p.1 = q.1 ∧ (p.2.1 < q.2.1 ∨ p.2.1 = q.2.1 ∧ p.2.2 < q.2.2)

theorem zipIdx_pairwise {α : Type} (l : List α) (n : ℕ) :
    (l.zipIdx n).Pairwise fun p q => p.2 < q.2 := by
  induction l generalizing n with
  | nil => simp
  | cons x l ih =>
    rw [List.zipIdx_cons, List.pairwise_cons]
    refine ⟨fun p hp => ?_, ih (n + 1)⟩
    have := List.le_snd_of_mem_zipIdx hp
    show n < p.2
    omega

theorem nzPos_sorted (bead : List K) :
    ((bead.zipIdx.filter fun p => p.1 ≠ 0).map (fun p => p.2)).Pairwise (· < ·) := by
  rw [List.pairwise_map]
  exact (zipIdx_pairwise bead 0).filter _

theorem beadSites_sorted (nk : List (List K)) (k : ℕ) :
    ((beadSites nk).getD k []).Pairwise (· < ·) := by
  unfold beadSites
  rw [List.getD_eq_getElem?_getD, List.getElem?_map]
  cases nk[k]? with
  | none => simp
  | some bead => exact nzPos_sorted bead

/-- **C23** (strictly increasing in lexicographic order, so each triple occurs once). -/
theorem c23_sorted (nk comp : List (List K)) : (assocSiteIndices nk comp).Pairwise lex3 := by
  unfold assocSiteIndices
  rw [List.pairwise_flatMap]
  constructor
  · intro ci _
    rw [List.pairwise_flatMap]
    constructor
    · intro bj _
      split
      · rw [List.pairwise_map]
        exact (beadSites_sorted nk bj.2).imp fun h => .inr ⟨rfl, .inr ⟨rfl, h⟩⟩
      · exact List.Pairwise.nil
    · refine (zipIdx_pairwise ci.1 0).imp fun {p q} h => ?_
      intro x hx y hy
      split at hx
      · split at hy
        · obtain ⟨a, _, rfl⟩ := List.mem_map.1 hx
          obtain ⟨b, _, rfl⟩ := List.mem_map.1 hy
          exact .inr ⟨rfl, .inl h⟩
        · simp at hy
      · simp at hx
  · refine (zipIdx_pairwise comp 0).imp fun {p q} h => ?_
    intro x hx y hy
    obtain ⟨bj, _, hx⟩ := List.mem_flatMap.1 hx
    obtain ⟨bj', _, hy⟩ := List.mem_flatMap.1 hy
    split at hx
    · split at hy
      · obtain ⟨a, _, rfl⟩ := List.mem_map.1 hx
        obtain ⟨b, _, rfl⟩ := List.mem_map.1 hy
        exact .inl h
      · simp at hy
    · simp at hx

/-- **C23** (no triple occurs twice). -/
theorem c23_nodup (nk comp : List (List K)) : (assocSiteIndices nk comp).Nodup :=
  (c23_sorted nk comp).imp fun {p q} h e => by
    subst e
    rcases h with h | ⟨_, h | ⟨_, h⟩⟩ <;> omega

/-- **C23** (association is switched on exactly when a component has a group with a site). -/
theorem c23_flag (nk comp : List (List K)) :
    flagAssoc nk comp = true ↔ ∃ i k a : ℕ, (∃ row v, comp[i]? = some row ∧ row[k]? = some v ∧ v ≠ 0) ∧
        ∃ bead w, nk[k]? = some bead ∧ bead[a]? = some w ∧ w ≠ 0 := by
  unfold flagAssoc
  constructor
  · intro h
    cases hl : assocSiteIndices nk comp with
    | nil => rw [hl] at h; simp at h
    | cons t l =>
      obtain ⟨i, k, a⟩ := t
      exact ⟨i, k, a, (c23_mem nk comp i k a).1 (by rw [hl]; simp)⟩
  · rintro ⟨i, k, a, h⟩
    have := (c23_mem nk comp i k a).2 h
    cases hl : assocSiteIndices nk comp with
    | nil => rw [hl] at this; simp at this
    | cons t l => rfl

end

/-- Two components, two groups, two sites: the second group carries both sites. -/
example : assocSiteIndices [[0, 2], [1, 1]] [[2, 0], [1, 1]] =
    [(0, 0, 1), (1, 0, 1), (1, 1, 0), (1, 1, 1)] := by decide

/-! ## C24 -/

section
variable {K : Type} [Zero K] {σ : Type} [DecidableEq σ]

/-- Whether an entry declares the number of sites `site`. -/
def declares (isNk : σ → Bool) (site : σ) (kv : List σ × K) : Bool :=
  match kv.1 with
  | [p, s] => isNk p && s == site
  | _ => false

/-- The number of sites `site` declared in a dictionary: the last entry that declares it. -/
def declared (isNk : σ → Bool) (entries : List (List σ × K)) (site : σ) : Option K :=
  ((entries.filter (declares isNk site)).getLast?).map fun kv => kv.2

/-- A key that starts with `Nk` but does not have exactly two parts. -/
def malformed (isNk : σ → Bool) (kv : List σ × K) : Prop :=
  ∃ p rest, kv.1 = p :: rest ∧ isNk p = true ∧ rest.length ≠ 1

omit [Zero K] in
theorem declared_nil (isNk : σ → Bool) (site : σ) : declared (K := K) isNk [] site = none := rfl

omit [Zero K] in
theorem declared_snoc (isNk : σ → Bool) (es : List (List σ × K)) (kv : List σ × K) (site : σ) :
    declared isNk (es ++ [kv]) site =
      if declares isNk site kv then some kv.2 else declared isNk es site := by
  unfold declared
  rw [List.filter_append]
  by_cases h : declares isNk site kv = true <;> simp [h]

omit [Zero K] in
theorem map_set_idxOf {names : List σ} (hn : names.Nodup) {site : σ} (hs : site ∈ names) (f : σ → K)
    (v : K) : (names.map f).set (names.idxOf site) v = names.map fun s => if s = site then v else f s := by
  apply List.ext_getElem?
  intro m
  rw [List.getElem?_set, List.getElem?_map, List.getElem?_map, List.length_map]
  have hlt := List.idxOf_lt_length_iff.2 hs
  by_cases h : names.idxOf site = m
  · subst h
    rw [if_pos rfl, if_pos hlt, List.getElem?_eq_getElem hlt, List.getElem_idxOf]
    simp
  · rw [if_neg h]
    cases hm : names[m]? with
    | none => rfl
    | some s =>
      have : s ≠ site := by
        rintro rfl
        obtain ⟨hlt', e⟩ := List.getElem?_eq_some_iff.1 hm
        exact h (by rw [← e, hn.idxOf_getElem])
      simp [this]

/-- The invariant of the loops after the groups `bs` and the entries `pre` of the next one. -/
structure NkInv (isNk : σ → Bool) (bs : List (List (List σ × K))) (pre : List (List σ × K))
    (st : NkState K σ) : Prop where
  nodup : st.names.Nodup
  mem : ∀ site, site ∈ st.names ↔
    (∃ es ∈ bs, declared isNk es site ≠ none) ∨ declared isNk pre site ≠ none
  done : st.done = bs.map fun es => st.names.map fun s => (declared isNk es s).getD 0
  row : st.row = st.names.map fun s => (declared isNk pre s).getD 0

theorem nkEntry_inv {isNk : σ → Bool} {bs : List (List (List σ × K))} {pre : List (List σ × K)}
    {st : NkState K σ} (h : NkInv isNk bs pre st) (kv : List σ × K) :
    (malformed isNk kv ∧ nkEntry isNk st kv = .error .valueError) ∨
      (¬ malformed isNk kv ∧ ∃ st', nkEntry isNk st kv = .ok st' ∧ NkInv isNk bs (pre ++ [kv]) st') := by
  obtain ⟨key, v⟩ := kv
  have same : (∀ s, declares isNk s (key, v) = false) → NkInv isNk bs (pre ++ [(key, v)]) st := by
    intro hd
    have : ∀ s, declared isNk (pre ++ [(key, v)]) s = declared isNk pre s := by
      intro s; rw [declared_snoc, hd s]; rfl
    exact ⟨h.nodup, by simp only [this]; exact h.mem, h.done, by simp only [this]; exact h.row⟩
  cases key with
  | nil =>
    refine .inr ⟨?_, st, rfl, same fun _ => rfl⟩
    rintro ⟨p, rest, e, _⟩
    exact absurd e (by simp)
  | cons p rest =>
    by_cases hp : isNk p = true
    · by_cases hr : rest.length = 1
      · obtain ⟨site, rfl⟩ := List.length_eq_one_iff.1 hr
        have hm : ¬ malformed isNk (([p, site], v) : List σ × K) := by
          rintro ⟨p', rest', e, _, hl⟩
          simp only [List.cons.injEq] at e
          rw [← e.2] at hl
          exact hl rfl
        have hdecl : ∀ s, declared isNk (pre ++ [([p, site], v)]) s =
            if s = site then some v else declared isNk pre s := by
          intro s
          rw [declared_snoc]
          by_cases e : s = site
          · simp [declares, hp, e]
          · simp [declares, hp, e, Ne.symm e]
        refine .inr ⟨hm, ?_⟩
        unfold nkEntry
        simp only [hp, if_true]
        by_cases hs : site ∈ st.names
        · rw [if_pos hs]
          refine ⟨_, rfl, h.nodup, ?_, h.done, ?_⟩
          · intro s
            show s ∈ st.names ↔ _
            rw [h.mem, hdecl]
            by_cases e : s = site
            · subst e
              simp only [if_true, ne_eq, reduceCtorEq, not_false_eq_true, or_true, iff_true]
              exact (h.mem s).1 hs
            · rw [if_neg e]
          · show st.row.set _ v = _
            rw [h.row, map_set_idxOf h.nodup hs]
            refine List.map_congr_left fun s _ => ?_
            rw [hdecl]
            split <;> simp
        · rw [if_neg hs]
          have hnot := fun hh => hs ((h.mem site).2 hh)
          have hbs : ∀ es ∈ bs, declared isNk es site = none := fun es hes => by
            by_contra hne; exact hnot (.inl ⟨es, hes, hne⟩)
          refine ⟨_, rfl, ?_, ?_, ?_, ?_⟩
          · show (st.names ++ [site]).Nodup
            rw [List.nodup_append]
            refine ⟨h.nodup, by simp, ?_⟩
            intro a ha b hb e
            rw [List.mem_singleton] at hb
            exact hs (hb ▸ e ▸ ha)
          · intro s
            show s ∈ st.names ++ [site] ↔ _
            rw [List.mem_append, List.mem_singleton, h.mem, hdecl]
            by_cases e : s = site
            · simp [e]
            · simp [e]
          · show st.done.map (· ++ [0]) = _
            rw [h.done, List.map_map]
            refine List.map_congr_left fun es hes => ?_
            simp [hbs es hes]
          · show st.row ++ [v] = _
            rw [h.row, List.map_append]
            congr 1
            · refine List.map_congr_left fun s hs' => ?_
              have : s ≠ site := fun e => hs (e ▸ hs')
              rw [hdecl, if_neg this]
            · simp [hdecl]
      · refine .inl ⟨⟨p, rest, rfl, hp, hr⟩, ?_⟩
        unfold nkEntry
        simp only [hp, if_true]
        match rest, hr with
        | [], _ => rfl
        | [_], hr => exact absurd rfl hr
        | _ :: _ :: _, _ => rfl
    · refine .inr ⟨?_, st, by simp [nkEntry, hp], same fun s => ?_⟩
      · rintro ⟨p', rest', e, hp', _⟩
        simp only [List.cons.injEq] at e
        rw [← e.1] at hp'
        exact hp hp'
      · match rest with
        | [] => rfl
        | [_] => simp [declares, hp]
        | _ :: _ :: _ => rfl

theorem nkEntries_inv {isNk : σ → Bool} {bs : List (List (List σ × K))} (es : List (List σ × K))
    {pre : List (List σ × K)} {st : NkState K σ} (h : NkInv isNk bs pre st) :
    ((∃ kv ∈ es, malformed isNk kv) ∧ es.foldlM (nkEntry isNk) st = .error .valueError) ∨
      ((∀ kv ∈ es, ¬ malformed isNk kv) ∧
        ∃ st', es.foldlM (nkEntry isNk) st = .ok st' ∧ NkInv isNk bs (pre ++ es) st') := by
  induction es generalizing pre st with
  | nil => exact .inr ⟨by simp, st, rfl, by simpa using h⟩
  | cons kv es ih =>
    rcases nkEntry_inv h kv with ⟨hm, e⟩ | ⟨hm, st', e, h'⟩
    · refine .inl ⟨⟨kv, by simp, hm⟩, ?_⟩
      rw [List.foldlM_cons, e]; rfl
    · rw [List.foldlM_cons, e]
      rcases ih h' with ⟨⟨kv', hkv, hm'⟩, e'⟩ | ⟨hall, st'', e', h''⟩
      · exact .inl ⟨⟨kv', by simp [hkv], hm'⟩, e'⟩
      · refine .inr ⟨?_, st'', e', by simpa using h''⟩
        intro kv' hkv
        rcases List.mem_cons.1 hkv with rfl | hkv
        · exact hm
        · exact hall kv' hkv

theorem nkBeads_inv {isNk : σ → Bool} (beads : List (List (List σ × K)))
    {bs : List (List (List σ × K))} {st : NkState K σ} (h : NkInv isNk bs [] st) :
    ((∃ es ∈ beads, ∃ kv ∈ es, malformed isNk kv) ∧
        beads.foldlM (nkBead isNk) st = .error .valueError) ∨
      ((∀ es ∈ beads, ∀ kv ∈ es, ¬ malformed isNk kv) ∧
        ∃ st', beads.foldlM (nkBead isNk) st = .ok st' ∧ NkInv isNk (bs ++ beads) [] { st' with row := st'.names.map fun _ => 0 }) := by
  induction beads generalizing bs st with
  | nil =>
    refine .inr ⟨by simp, st, rfl, ?_⟩
    rw [List.append_nil]
    exact ⟨h.nodup, h.mem, h.done, by simp [declared_nil]⟩
  | cons es beads ih =>
    have h0 : NkInv isNk bs [] { st with row := st.names.map fun _ => 0 } :=
      ⟨h.nodup, h.mem, h.done, by simp [declared_nil]⟩
    rw [List.foldlM_cons]
    rcases nkEntries_inv es h0 with ⟨⟨kv, hkv, hm⟩, e⟩ | ⟨hall, st', e, h'⟩
    · refine .inl ⟨⟨es, by simp, kv, hkv, hm⟩, ?_⟩
      unfold nkBead
      rw [e]; rfl
    · have hb : nkBead isNk st es = .ok { names := st'.names, done := st'.done ++ [st'.row], row := [] } := by
        unfold nkBead
        rw [e]; rfl
      rw [hb]
      have h2 : NkInv isNk (bs ++ [es]) [] { names := st'.names, done := st'.done ++ [st'.row], row := st'.names.map fun _ => 0 } := by
        refine ⟨h'.nodup, ?_, ?_, by simp [declared_nil]⟩
        · intro s
          rw [h'.mem]
          simp [declared_nil, or_and_right, exists_or]
        · simp only [List.map_append, List.map_cons, List.map_nil]
          rw [h'.done, h'.row, List.nil_append]
      have h3 : NkInv isNk (bs ++ [es]) [] { names := st'.names, done := st'.done ++ [st'.row], row := st'.names.map fun _ => 0 } := h2
      -- the row is replaced at the start of the next group
      have ih' := @ih (bs ++ [es]) { names := st'.names, done := st'.done ++ [st'.row], row := st'.names.map fun _ => 0 } h3
      have irrel : ∀ bl : List (List (List σ × K)), ∀ r r' : List K, ∀ nm : List σ, ∀ d : List (List K),
          bl ≠ [] → bl.foldlM (nkBead isNk) { names := nm, done := d, row := r } =
            bl.foldlM (nkBead isNk) { names := nm, done := d, row := r' } := by
        intro bl r r' nm d hne
        cases bl with
        | nil => exact absurd rfl hne
        | cons x xs => rfl
      by_cases hbn : beads = []
      · subst hbn
        refine .inr ⟨by simpa using hall, _, rfl, h2⟩
      · show ((∃ es' ∈ es :: beads, ∃ kv ∈ es', malformed isNk kv) ∧
          beads.foldlM (nkBead isNk) { names := st'.names, done := st'.done ++ [st'.row], row := [] } = _) ∨ _
        rw [irrel beads [] (st'.names.map fun _ => 0) _ _ hbn]
        rcases ih' with ⟨⟨es', hes, hm⟩, e'⟩ | ⟨hall', st'', e', h''⟩
        · exact .inl ⟨⟨es', by simp [hes], hm⟩, e'⟩
        · refine .inr ⟨?_, st'', ?_, by simpa using h''⟩
          · intro es' hes
            rcases List.mem_cons.1 hes with rfl | hes
            · exact hall
            · exact hall' es' hes
          · show beads.foldlM (nkBead isNk) { names := st'.names, done := st'.done ++ [st'.row], row := [] } = _
            rw [irrel beads [] (st'.names.map fun _ => 0) _ _ hbn]
            exact e'

theorem nkInv_init (isNk : σ → Bool) : NkInv (K := K) isNk [] [] { names := [], done := [], row := [] } :=
  ⟨List.nodup_nil, by simp [declared_nil], rfl, rfl⟩

/-- **C24**: the site names are the distinct declared names, and the matrix has one row per group and
one column per name, whose entry is the declared number, or zero. -/
theorem c24_matrix (isNk : σ → Bool) (beads : List (List (List σ × K))) {names : List σ}
    {nk : List (List K)} (h : initiateAssoc isNk beads = .ok (names, nk)) :
    names.Nodup ∧ (∀ site, site ∈ names ↔ ∃ es ∈ beads, declared isNk es site ≠ none) ∧
      nk = beads.map fun es => names.map fun s => (declared isNk es s).getD 0 := by
  unfold initiateAssoc at h
  rcases nkBeads_inv beads (nkInv_init (K := K) isNk) with ⟨_, e⟩ | ⟨_, st', e, h'⟩
  · rw [e] at h; cases h
  · rw [e] at h
    have h := Except.ok.inj h
    simp only [Prod.mk.injEq] at h
    obtain ⟨rfl, rfl⟩ := h
    refine ⟨h'.nodup, ?_, by simpa using h'.done⟩
    intro s
    have := h'.mem s
    simpa [declared_nil] using this

/-- **C24** (rejections): the input is rejected, with `ValueError`, exactly when some key that starts
with `Nk` does not have exactly two parts. -/
theorem c24_rejected_iff (isNk : σ → Bool) (beads : List (List (List σ × K))) (e : PyErr) :
    initiateAssoc isNk beads = .error e ↔
      e = .valueError ∧ ∃ es ∈ beads, ∃ kv ∈ es, malformed isNk kv := by
  unfold initiateAssoc
  rcases nkBeads_inv beads (nkInv_init (K := K) isNk) with ⟨hm, e'⟩ | ⟨hall, st', e', _⟩
  · rw [e']
    constructor
    · intro h; exact ⟨(Except.error.inj h).symm, hm⟩
    · rintro ⟨rfl, _⟩; rfl
  · rw [e']
    constructor
    · intro h; cases h
    · rintro ⟨_, es, hes, kv, hkv, hm⟩; exact absurd hm (hall es hes kv hkv)

/-- **C24** (rectangular). -/
theorem c24_rectangular (isNk : σ → Bool) (beads : List (List (List σ × K))) {names : List σ}
    {nk : List (List K)} (h : initiateAssoc isNk beads = .ok (names, nk)) :
    nk.length = beads.length ∧ ∀ row ∈ nk, row.length = names.length := by
  obtain ⟨_, _, rfl⟩ := c24_matrix isNk beads h
  refine ⟨by simp, ?_⟩
  intro row hr
  obtain ⟨es, _, rfl⟩ := List.mem_map.1 hr
  simp

/-- **C24** (order of discovery): for any two orders of the groups, a group has the same number of a
site in both matrices. -/
theorem c24_order (isNk : σ → Bool) (beads beads' : List (List (List σ × K))) {names names' : List σ}
    {nk nk' : List (List K)} (h : initiateAssoc isNk beads = .ok (names, nk))
    (h' : initiateAssoc isNk beads' = .ok (names', nk')) {i i' s s' : ℕ} {es : List (List σ × K)}
    (hi : beads[i]? = some es) (hi' : beads'[i']? = some es) {site : σ} (hs : names[s]? = some site)
    (hs' : names'[s']? = some site) :
    (nk[i]?.bind fun r => r[s]?) = (nk'[i']?.bind fun r => r[s']?) := by
  obtain ⟨_, _, rfl⟩ := c24_matrix isNk beads h
  obtain ⟨_, _, rfl⟩ := c24_matrix isNk beads' h'
  simp [List.getElem?_map, hi, hi', hs, hs']

end

/-- Three groups; the site `H` is found on the second one only. -/
example : initiateAssoc (K := ℕ) (fun p => p == "Nk")
    [[(["epsilon"], 250), (["Nk", "e"], 2)], [(["Nk", "H"], 1), (["Nk", "e"], 3)], []] =
    .ok (["e", "H"], [[2, 0], [3, 1], [0, 0]]) := by decide

/-! ## C25 -/

section
variable {K : Type} [Field K] [LinearOrder K]

theorem foldlM_inv {α β : Type} (P : β → Prop) (f : β → α → Except PyErr β) (l : List α)
    (hf : ∀ s x s', P s → f s x = .ok s' → P s') {s s' : β} (hs : P s) (h : l.foldlM f s = .ok s') :
    P s' := by
  induction l generalizing s with
  | nil => exact Except.ok.inj h ▸ hs
  | cons x l ih =>
    rw [List.foldlM_cons] at h
    cases e : f s x with
    | error _ => rw [e] at h; cases h
    | ok t => rw [e] at h; exact ih (hf _ _ _ hs e) h

/-- Exchanging the two (group, site) pairs leaves the array unchanged. -/
def Symm (A : Arr K) : Prop := ∀ i j a b, A i j a b = A j i b a

omit [Field K] [LinearOrder K] in
theorem put2_eq (A : Arr K) (i j a b : ℕ) (v : K) (i' j' a' b' : ℕ) :
    A.put2 i j a b v i' j' a' b' =
      if (i' = i ∧ j' = j ∧ a' = a ∧ b' = b) ∨ (i' = j ∧ j' = i ∧ a' = b ∧ b' = a) then v
      else A i' j' a' b' := by
  simp only [Arr.put2, Arr.put, and_self, if_true]
  by_cases h1 : i' = i ∧ j' = j ∧ a' = a ∧ b' = b
  · simp [h1]
  · by_cases h2 : i' = j ∧ j' = i ∧ a' = b ∧ b' = a
    · simp [h2]
    · simp [h1, h2]

omit [Field K] [LinearOrder K] in
theorem symm_put2 {A : Arr K} (h : Symm A) (i j a b : ℕ) (v : K) : Symm (A.put2 i j a b v) := by
  intro i' j' a' b'
  rw [put2_eq, put2_eq, h i' j' a' b']
  congr 1
  apply propext
  constructor
  · rintro (⟨rfl, rfl, rfl, rfl⟩ | ⟨rfl, rfl, rfl, rfl⟩)
    · exact .inr ⟨rfl, rfl, rfl, rfl⟩
    · exact .inl ⟨rfl, rfl, rfl, rfl⟩
  · rintro (⟨rfl, rfl, rfl, rfl⟩ | ⟨rfl, rfl, rfl, rfl⟩)
    · exact .inr ⟨rfl, rfl, rfl, rfl⟩
    · exact .inl ⟨rfl, rfl, rfl, rfl⟩

/-- All four arrays. -/
structure MatsSymm (m : Mats K) : Prop where
  eps : Symm m.eps
  vol : Symm m.vol
  rc : Symm m.rc
  rd : Symm m.rd

omit [Field K] [LinearOrder K] in
theorem symm_putOpt {A : Arr K} (h : Symm A) (fl : Bool) (i j a b : ℕ) (v : Option K) :
    Symm (putOpt A fl i j a b v).1 := by
  cases v with
  | none => exact h
  | some v => exact symm_put2 h _ _ _ _ _

omit [Field K] [LinearOrder K] in
theorem symm_putCross {A : Arr K} (h : Symm A) (fl : Bool) (i j a b : ℕ) (v : Option K) :
    Symm (putCross A fl i j a b v) := by
  unfold putCross
  split
  · split
    · exact symm_put2 h _ _ _ _ _
    · exact h
  · exact h

theorem symm_combVol {A : Arr K} (h : Symm A) (f : K → K → K) (fl : Bool) (i j a b : ℕ) :
    Symm (combVol f A fl i j a b) := by
  unfold combVol
  split
  · exact symm_put2 h _ _ _ _ _
  · exact h

theorem symm_combEps {A : Arr K} (h : Symm A) (sqrt : K → K) (c : Cfg K) (i j a b : ℕ) :
    Symm (combEps sqrt c A i j a b) := by
  unfold combEps
  split
  · split
    · exact symm_put2 h _ _ _ _ _
    · exact h
  · exact h

theorem selfCell_symm {L : Lib K ℕ} {i a b : ℕ} {m m' : Mats K} (hm : MatsSymm m)
    (h : selfCell L i a b m = .ok m') : MatsSymm m' := by
  unfold selfCell at h
  simp only at h
  split at h
  · cases h
  · split at h
    · cases h
    · split at h
      · cases h
      · split at h
        · exact Except.ok.inj h ▸ hm
        · obtain rfl := Except.ok.inj h
          exact ⟨symm_put2 hm.eps _ _ _ _ _, symm_putOpt hm.vol _ _ _ _ _ _,
            symm_putOpt hm.rc _ _ _ _ _ _, symm_putOpt hm.rd _ _ _ _ _ _⟩

theorem selfAll_symm {c : Cfg K} {m m' : Mats K} (hm : MatsSymm m) (h : selfAll c m = .ok m') :
    MatsSymm m' := by
  refine foldlM_inv MatsSymm _ _ (fun s i s' hs e => ?_) hm h
  refine foldlM_inv MatsSymm _ _ (fun s a s' hs e => ?_) hs e
  unfold selfA at e
  split at e
  · exact Except.ok.inj e ▸ hs
  · refine foldlM_inv MatsSymm _ _ (fun s b s' hs e => ?_) hs e
    split at e
    · exact selfCell_symm hs e
    · exact Except.ok.inj e ▸ hs

theorem crossJ_symm {sqrt cbrt : K → K} {c : Cfg K} {i a0 b0 j : ℕ} {st st' : CrossSt K}
    (hm : MatsSymm st.m) (h : crossJ sqrt cbrt c i a0 b0 st j = .ok st') : MatsSymm st'.m := by
  unfold crossJ at h
  split at h
  · exact Except.ok.inj h ▸ hm
  · split at h
    · unfold crossHit at h
      simp only at h
      split at h
      · cases h
      · obtain rfl := Except.ok.inj h
        exact ⟨symm_put2 hm.eps _ _ _ _ _, symm_putCross hm.vol _ _ _ _ _ _,
          symm_putCross hm.rc _ _ _ _ _ _, symm_putCross hm.rd _ _ _ _ _ _⟩
    · split at h
      · obtain rfl := Except.ok.inj h
        exact ⟨symm_combEps hm.eps _ _ _ _ _ _, symm_combVol hm.vol _ _ _ _ _ _,
          symm_combVol hm.rc _ _ _ _ _ _, symm_combVol hm.rd _ _ _ _ _ _⟩
      · exact Except.ok.inj h ▸ hm

theorem crossAll_symm {sqrt cbrt : K → K} {c : Cfg K} {m m' : Mats K} (hm : MatsSymm m)
    (h : crossAll sqrt cbrt c m = .ok m') : MatsSymm m' := by
  refine foldlM_inv MatsSymm _ _ (fun s i s' hs e => ?_) hm h
  refine foldlM_inv MatsSymm _ _ (fun s a s' hs e => ?_) hs e
  unfold crossA at e
  split at e
  · exact Except.ok.inj e ▸ hs
  · cases e1 : (List.range c.ns).foldlM (crossB sqrt cbrt c i a) (s, a) with
    | error _ => rw [e1] at e; cases e
    | ok t =>
      rw [e1] at e
      obtain rfl := Except.ok.inj e
      refine foldlM_inv (fun t : Mats K × ℕ => MatsSymm t.1) _ _ (fun s b s' hs e => ?_)
        (show MatsSymm ((s, a) : Mats K × ℕ).1 from hs) e1
      unfold crossB at e
      cases e2 : (List.range c.nb).foldlM (crossJ sqrt cbrt c i a b)
          { m := s.1, a := s.2, b := b, key := (a, b) } with
      | error _ => rw [e2] at e; cases e
      | ok u =>
        rw [e2] at e
        obtain rfl := Except.ok.inj e
        exact foldlM_inv (fun u : CrossSt K => MatsSymm u.m) _ _ (fun s j s' hs e => crossJ_symm hs e)
          hs e2

/-- **C25**: whatever the libraries, energies, bonding volumes, cutoff distances and site positions
that are returned are unchanged by exchanging the two (group, site) pairs. -/
theorem c25_symmetric (sqrt cbrt : K → K) (c : Cfg K) {m : Mats K} (h : calcAssoc sqrt cbrt c = .ok m)
    (i j a b : ℕ) : m.eps i j a b = m.eps j i b a ∧ m.vol i j a b = m.vol j i b a ∧
      m.rc i j a b = m.rc j i b a ∧ m.rd i j a b = m.rd j i b a := by
  have key : MatsSymm m := by
    unfold calcAssoc at h
    cases e1 : selfAll c Mats.zero with
    | error _ => rw [e1] at h; cases h
    | ok m1 =>
      rw [e1] at h
      have h1 : MatsSymm m1 := selfAll_symm ⟨fun _ _ _ _ => rfl, fun _ _ _ _ => rfl,
        fun _ _ _ _ => rfl, fun _ _ _ _ => rfl⟩ e1
      cases e2 : crossAll sqrt cbrt c m1 with
      | error _ => simp only [bind, Except.bind, e2] at h; cases h
      | ok m2 =>
        simp only [bind, Except.bind, e2] at h
        have h2 := crossAll_symm h1 e2
        split at h
        · cases h
        · split at h
          · cases h
          · exact Except.ok.inj h ▸ h2
  exact ⟨key.eps i j a b, key.vol i j a b, key.rc i j a b, key.rd i j a b⟩

/-! ## C65: cross association parameters take effect -/

theorem foldlM_reach {α β : Type} (I P : β → Prop) (f : β → α → Except PyErr β) (l : List α) (x : α)
    (hx : x ∈ l) (hI : ∀ s y s', I s → f s y = .ok s' → I s')
    (hP : ∀ s y s', I s → P s → f s y = .ok s' → P s') (hst : ∀ s s', I s → f s x = .ok s' → P s')
    {s s' : β} (hs : I s) (h : l.foldlM f s = .ok s') : P s' := by
  induction l generalizing s with
  | nil => simp at hx
  | cons y l ih =>
    rw [List.foldlM_cons] at h
    cases e : f s y with
    | error _ => rw [e] at h; cases h
    | ok t =>
      rw [e] at h
      rcases List.mem_cons.1 hx with rfl | hx
      · exact (foldlM_inv (fun s => I s ∧ P s) f l
          (fun s y s' hh e => ⟨hI _ _ _ hh.1 e, hP _ _ _ hh.1 hh.2 e⟩)
          ⟨hI _ _ _ hs e, hst _ _ hs e⟩ h).2
      · exact ih hx (hI _ _ _ hs e) h

/-- The library holds one cross entry, between two different sites that exist. -/
structure OneCross (c : Cfg K) (i0 j0 a0 b0 : ℕ) (v : K) : Prop where
  ne : a0 ≠ b0
  nz : v ≠ 0
  lib : ∀ i j a b, c.cross.eps (i, j) a b =
    if i = i0 ∧ j = j0 ∧ a = a0 ∧ b = b0 then some v else none
  nka : c.nk i0 a0 ≠ 0
  nkb : c.nk j0 b0 ≠ 0

/-- The state of the innermost loop for the sites `a`, `b`. -/
def LoopInv (a b : ℕ) (st : CrossSt K) : Prop :=
  st.a = a ∧ st.b = b ∧ (st.key = (a, b) ∨ st.key.1 = st.key.2)

theorem combEps_keeps {sqrt : K → K} {c : Cfg K} {A : Arr K} (hA : Symm A) {i j a b i0 j0 a0 b0 : ℕ}
    {v : K} (hv : v ≠ 0) (h : A i0 j0 a0 b0 = v) : combEps sqrt c A i j a b i0 j0 a0 b0 = v := by
  unfold combEps
  have key : ∀ x : K, A j i b a = 0 → A.put2 i j a b x i0 j0 a0 b0 = v := by
    intro x h0
    rw [put2_eq, if_neg, h]
    rintro (⟨rfl, rfl, rfl, rfl⟩ | ⟨rfl, rfl, rfl, rfl⟩)
    · rw [← hA] at h0; exact hv (h ▸ h0)
    · exact hv (h ▸ h0)
  split
  · rename_i h0
    cases c.slf.eps i a a <;> cases c.slf.eps j b b <;> first | exact h | exact key _ h0
  · cases c.slf.eps i a a <;> cases c.slf.eps j b b <;> exact h

theorem crossJ_step {sqrt cbrt : K → K} {c : Cfg K} {i0 j0 a0 b0 : ℕ} {v : K}
    (ho : OneCross c i0 j0 a0 b0 v) {i a b j : ℕ} {st st' : CrossSt K} (hs : MatsSymm st.m)
    (hl : LoopInv a b st) (h : crossJ sqrt cbrt c i a b st j = .ok st') :
    LoopInv a b st' ∧ (st.m.eps i0 j0 a0 b0 = v → st'.m.eps i0 j0 a0 b0 = v) ∧
      (i = i0 → a = a0 → b = b0 → j = j0 → st.key = (a0, b0) → st'.m.eps i0 j0 a0 b0 = v) ∧
      (j ≠ j0 → c.nk j b = 0 → st' = st) := by
  obtain ⟨ea, eb, ek⟩ := hl
  unfold crossJ at h
  split at h
  · rename_i hskip
    obtain rfl := Except.ok.inj h
    refine ⟨⟨ea, eb, ek⟩, id, ?_, fun _ _ => rfl⟩
    rintro rfl rfl rfl rfl _
    rw [ea, eb] at hskip
    exact absurd hskip.2 ho.ne
  · rename_i hskip
    rw [ho.lib] at h
    split at h
    · rename_i v' hv'
      split at hv'
      · rename_i hkey
        obtain rfl := Option.some.inj hv'
        obtain ⟨rfl, rfl, k1, k2⟩ := hkey
        have hk : st.key = (a, b) := by
          rcases ek with e | e
          · exact e
          · exact absurd (k1 ▸ k2 ▸ e) ho.ne
        have e1 : a = a0 := by rw [← k1, hk]
        have e2 : b = b0 := by rw [← k2, hk]
        subst e1 e2
        unfold crossHit at h
        simp only [ea, eb] at h
        have hbad : ¬ (c.nk i a = 0 ∨ c.nk j b = 0) := by
          rintro (e | e)
          · exact ho.nka e
          · exact ho.nkb e
        rw [if_neg (fun hh => hbad hh.1)] at h
        obtain rfl := Except.ok.inj h
        have hval : (st.m.eps.put2 i j a b v) i j a b = v := by rw [put2_eq]; simp
        simp only [hbad, if_false]
        exact ⟨⟨rfl, rfl, .inl hk⟩, fun _ => hval, fun _ _ _ _ _ => hval,
          fun hne => absurd rfl hne⟩
      · cases hv'
    · rename_i hv'
      split at hv'
      · cases hv'
      · rename_i hkey
        split at h
        · rename_i hnk
          obtain rfl := Except.ok.inj h
          refine ⟨⟨ea, eb, .inr rfl⟩, fun h => combEps_keeps hs.eps ho.nz h, ?_, ?_⟩
          · rintro rfl rfl rfl rfl hk
            exact absurd ⟨rfl, rfl, by rw [hk], by rw [hk]⟩ hkey
          · intro _ h0
            rw [eb] at hnk
            exact absurd h0 hnk
        · obtain rfl := Except.ok.inj h
          refine ⟨⟨ea, eb, ek⟩, id, ?_, fun _ _ => rfl⟩
          rintro rfl rfl rfl rfl hk
          exact absurd ⟨rfl, rfl, by rw [hk], by rw [hk]⟩ hkey

/-- The innermost loop up to and including the second group of the entry. -/
theorem jLoop_hits {sqrt cbrt : K → K} {c : Cfg K} {i0 j0 a0 b0 : ℕ} {v : K}
    (ho : OneCross c i0 j0 a0 b0 v) (l1 l2 : List ℕ) (h1 : ∀ j ∈ l1, j ≠ j0 ∧ c.nk j b0 = 0)
    {st st' : CrossSt K} (hs : MatsSymm st.m) (hl : LoopInv a0 b0 st) (hk : st.key = (a0, b0))
    (h : (l1 ++ j0 :: l2).foldlM (crossJ sqrt cbrt c i0 a0 b0) st = .ok st') :
    st'.m.eps i0 j0 a0 b0 = v := by
  induction l1 with
  | nil =>
    rw [List.nil_append, List.foldlM_cons] at h
    cases e : crossJ sqrt cbrt c i0 a0 b0 st j0 with
    | error _ => rw [e] at h; cases h
    | ok t =>
      rw [e] at h
      have hstep := crossJ_step ho hs hl e
      exact (foldlM_inv (fun st : CrossSt K => MatsSymm st.m ∧ LoopInv a0 b0 st ∧
          st.m.eps i0 j0 a0 b0 = v) _ l2
        (fun s j s' hh e => by
          have := crossJ_step ho hh.1 hh.2.1 e
          exact ⟨crossJ_symm hh.1 e, this.1, this.2.1 hh.2.2⟩)
        ⟨crossJ_symm hs e, hstep.1, hstep.2.2.1 rfl rfl rfl rfl hk⟩ h).2.2
  | cons j l1 ih =>
    rw [List.cons_append, List.foldlM_cons] at h
    have hj := h1 j (by simp)
    cases e : crossJ sqrt cbrt c i0 a0 b0 st j with
    | error _ => rw [e] at h; cases h
    | ok t =>
      rw [e] at h
      obtain rfl := (crossJ_step ho hs hl e).2.2.2 hj.1 hj.2
      exact ih (fun j hj => h1 j (by simp [hj])) h

theorem crossB_step {sqrt cbrt : K → K} {c : Cfg K} {i0 j0 a0 b0 : ℕ} {v : K}
    (ho : OneCross c i0 j0 a0 b0 v) {i a : ℕ} {s s' : Mats K × ℕ} {b : ℕ} (hs : MatsSymm s.1)
    (ha : s.2 = a) (h : crossB sqrt cbrt c i a s b = .ok s') :
    MatsSymm s'.1 ∧ s'.2 = a ∧ (s.1.eps i0 j0 a0 b0 = v → s'.1.eps i0 j0 a0 b0 = v) ∧
      (i = i0 → a = a0 → b = b0 → j0 < c.nb → (∀ j < j0, c.nk j b0 = 0) →
        s'.1.eps i0 j0 a0 b0 = v) := by
  unfold crossB at h
  cases e2 : (List.range c.nb).foldlM (crossJ sqrt cbrt c i a b)
      { m := s.1, a := s.2, b := b, key := (a, b) } with
  | error _ => rw [e2] at h; cases h
  | ok u =>
    rw [e2] at h
    obtain rfl := Except.ok.inj h
    have hl : LoopInv a b ({ m := s.1, a := s.2, b := b, key := (a, b) } : CrossSt K) :=
      ⟨ha, rfl, .inl rfl⟩
    have h1 := foldlM_inv (fun st : CrossSt K => MatsSymm st.m ∧ LoopInv a b st ∧
          (s.1.eps i0 j0 a0 b0 = v → st.m.eps i0 j0 a0 b0 = v)) _ _
        (fun s j s' hh e => by
          have := crossJ_step ho hh.1 hh.2.1 e
          exact ⟨crossJ_symm hh.1 e, this.1, fun h => this.2.1 (hh.2.2 h)⟩)
        ⟨hs, hl, id⟩ e2
    refine ⟨h1.1, h1.2.1.1, h1.2.2, ?_⟩
    rintro rfl rfl rfl hj hfirst
    have hr : List.range c.nb = List.range j0 ++ j0 :: (List.range c.nb).drop (j0 + 1) := by
      have h1 : j0 < (List.range c.nb).length := by simpa using hj
      have h2 : (List.range c.nb).take j0 = List.range j0 := by
        rw [List.take_range, Nat.min_eq_left hj.le]
      conv_lhs => rw [← List.take_append_drop j0 (List.range c.nb), List.drop_eq_getElem_cons h1, h2]
      simp
    rw [hr] at e2
    refine jLoop_hits ho (List.range j0) _ ?_ (by exact hs) hl rfl e2
    intro j hj'
    have := List.mem_range.1 hj'
    exact ⟨by omega, hfirst j this⟩

theorem crossA_step {sqrt cbrt : K → K} {c : Cfg K} {i0 j0 a0 b0 : ℕ} {v : K}
    (ho : OneCross c i0 j0 a0 b0 v) {i a : ℕ} {m m' : Mats K} (hs : MatsSymm m)
    (h : crossA sqrt cbrt c i m a = .ok m') :
    MatsSymm m' ∧ (m.eps i0 j0 a0 b0 = v → m'.eps i0 j0 a0 b0 = v) ∧
      (i = i0 → a = a0 → b0 < c.ns → j0 < c.nb → (∀ j < j0, c.nk j b0 = 0) →
        m'.eps i0 j0 a0 b0 = v) := by
  unfold crossA at h
  split at h
  · rename_i h0
    obtain rfl := Except.ok.inj h
    refine ⟨hs, id, ?_⟩
    rintro rfl rfl
    exact absurd h0 ho.nka
  · cases e1 : (List.range c.ns).foldlM (crossB sqrt cbrt c i a) (m, a) with
    | error _ => rw [e1] at h; cases h
    | ok t =>
      rw [e1] at h
      obtain rfl := Except.ok.inj h
      have h1 := foldlM_inv (fun t : Mats K × ℕ => MatsSymm t.1 ∧ t.2 = a ∧
          (m.eps i0 j0 a0 b0 = v → t.1.eps i0 j0 a0 b0 = v)) _ _
        (fun s b s' hh e => by
          have := crossB_step ho hh.1 hh.2.1 e
          exact ⟨this.1, this.2.1, fun h => this.2.2.1 (hh.2.2 h)⟩)
        (s := ((m, a) : Mats K × ℕ)) ⟨hs, rfl, id⟩ e1
      refine ⟨h1.1, h1.2.2, ?_⟩
      rintro rfl rfl hb hj hfirst
      exact foldlM_reach (fun t : Mats K × ℕ => MatsSymm t.1 ∧ t.2 = a)
        (fun t => t.1.eps i j0 a b0 = v) (crossB sqrt cbrt c i a) _ b0 (List.mem_range.2 hb)
        (fun s b s' hh e => ⟨(crossB_step ho hh.1 hh.2 e).1, (crossB_step ho hh.1 hh.2 e).2.1⟩)
        (fun s b s' hh hp e => (crossB_step ho hh.1 hh.2 e).2.2.1 hp)
        (fun s s' hh e => (crossB_step ho hh.1 hh.2 e).2.2.2 rfl rfl rfl hj hfirst)
        (s := ((m, a) : Mats K × ℕ)) ⟨hs, rfl⟩ e1

/-- **C65** (what holds): a single cross energy between two different sites is stored when no group
before the second one carries the second site.  Missing for the full property: the other orders of
the groups, where the entry is lost (`c65_violated_lost`), and entries between equal sites, which
are also written for other pairs (`c65_violated_spurious`). -/
theorem c65_partial (sqrt cbrt : K → K) (c : Cfg K) {i0 j0 a0 b0 : ℕ} {v : K}
    (hi : i0 < c.nb) (hj : j0 < c.nb) (ha : a0 < c.ns) (hb : b0 < c.ns) (hab : a0 ≠ b0) (hv : v ≠ 0)
    (hlib : ∀ i j a b, c.cross.eps (i, j) a b =
      if i = i0 ∧ j = j0 ∧ a = a0 ∧ b = b0 then some v else none)
    (hnka : c.nk i0 a0 ≠ 0) (hnkb : c.nk j0 b0 ≠ 0) (hfirst : ∀ j < j0, c.nk j b0 = 0)
    {m : Mats K} (h : calcAssoc sqrt cbrt c = .ok m) : m.eps i0 j0 a0 b0 = v := by
  have ho : OneCross c i0 j0 a0 b0 v := ⟨hab, hv, hlib, hnka, hnkb⟩
  unfold calcAssoc at h
  cases e1 : selfAll c Mats.zero with
  | error _ => rw [e1] at h; cases h
  | ok m1 =>
    rw [e1] at h
    have h1 : MatsSymm m1 := selfAll_symm ⟨fun _ _ _ _ => rfl, fun _ _ _ _ => rfl,
      fun _ _ _ _ => rfl, fun _ _ _ _ => rfl⟩ e1
    cases e2 : crossAll sqrt cbrt c m1 with
    | error _ => simp only [bind, Except.bind, e2] at h; cases h
    | ok m2 =>
      simp only [bind, Except.bind, e2] at h
      have step : ∀ (s : Mats K) (i : ℕ) (s' : Mats K), MatsSymm s →
          (List.range c.ns).foldlM (crossA sqrt cbrt c i) s = .ok s' →
          MatsSymm s' ∧ (s.eps i0 j0 a0 b0 = v → s'.eps i0 j0 a0 b0 = v) ∧
            (i = i0 → s'.eps i0 j0 a0 b0 = v) := by
        intro s i s' hs e
        have h1 := foldlM_inv (fun t : Mats K => MatsSymm t ∧
            (s.eps i0 j0 a0 b0 = v → t.eps i0 j0 a0 b0 = v)) _ _
          (fun s a s' hh e => by
            have := crossA_step ho hh.1 e
            exact ⟨this.1, fun h => this.2.1 (hh.2 h)⟩) ⟨hs, id⟩ e
        refine ⟨h1.1, h1.2, ?_⟩
        rintro rfl
        exact foldlM_reach MatsSymm (fun t => t.eps i j0 a0 b0 = v) (crossA sqrt cbrt c i) _ a0 (List.mem_range.2 ha)
          (fun s a s' hh e => (crossA_step ho hh e).1)
          (fun s a s' hh hp e => (crossA_step ho hh e).2.1 hp)
          (fun s s' hh e => (crossA_step ho hh e).2.2 rfl rfl hb hj hfirst) hs e
      have hfin : m2.eps i0 j0 a0 b0 = v :=
        foldlM_reach MatsSymm (fun t => t.eps i0 j0 a0 b0 = v) _ _ i0 (List.mem_range.2 hi)
          (fun s i s' hh e => (step s i s' hh e).1)
          (fun s i s' hh hp e => (step s i s' hh e).2.1 hp)
          (fun s s' hh e => (step s i0 s' hh e).2.2 rfl) h1 e2
      split at h
      · cases h
      · split at h
        · cases h
        · exact Except.ok.inj h ▸ hfin

/-- **C63** (sign of the energy): a site declared to interact with itself gets a non-positive energy,
whatever the sign in the library. -/
theorem c63_self_energy [IsStrictOrderedRing K] (L : Lib K ℕ) (i a : ℕ) {m m' : Mats K}
    (hm : m.eps i i a a ≤ 0) (h : selfCell L i a a m = .ok m') : m'.eps i i a a ≤ 0 := by
  unfold selfCell at h
  simp only at h
  split at h
  · cases h
  · split at h
    · cases h
    · split at h
      · cases h
      · split at h
        · exact Except.ok.inj h ▸ hm
        · rename_i ε _
          obtain rfl := Except.ok.inj h
          show (m.eps.put2 i i a a _) i i a a ≤ 0
          rw [put2_eq]
          simp [abs_nonneg]

end

/-- Two groups that both carry the sites `0` and `1`, which bond within a group with energy 50; the
cross library is a parameter. -/
def twoGroups (cross : ℕ × ℕ → ℕ → ℕ → Option ℚ) : Cfg ℚ where
  nb := 2
  ns := 2
  nk := fun _ _ => 1
  slf := { eps := fun _ a b => if a = 0 ∧ b = 1 then some 50 else none
           vol := fun _ a b => if a = 0 ∧ b = 1 then some 1 else none
           rc := fun _ _ _ => none
           rd := fun _ _ _ => none }
  cross := { eps := cross
             vol := fun _ _ _ => none
             rc := fun _ _ _ => none
             rd := fun _ _ _ => none }

/-- **C65** is violated: the energy 100 between site 0 of the first group and site 1 of the second is
lost, because the name of the entry looked for is overwritten while the first group is treated; with
the two groups in the other order the same entry is found.  The bonding volumes of the groups are found
in both orders.  (The two site-site cube roots and square
roots that occur are of zero, for which the identity is exact.) -/
theorem c65_violated_lost :
    ((calcAssoc id id (twoGroups fun p a b => if p = (0, 1) ∧ a = 0 ∧ b = 1 then some 100 else none)).toOption.map
        fun m => (m.eps 0 1 0 1, m.fK)) = some (0, true) ∧
      ((calcAssoc id id (twoGroups fun p a b => if p = (1, 0) ∧ a = 0 ∧ b = 1 then some 100 else none)).toOption.map
        fun m => (m.eps 1 0 0 1, m.fK)) = some (100, true) := by
  decide +kernel

/-- **C65** is violated: an energy given between site 1 of the first and site 1 of the second group
is also used between site 0 of the first and site 1 of the second, for which none is given. -/
theorem c65_violated_spurious :
    ((calcAssoc id id (twoGroups fun p a b => if p = (0, 1) ∧ a = 1 ∧ b = 1 then some 100 else none)).toOption.map
        fun m => m.eps 0 1 0 1) = some 100 := by
  decide +kernel

/-- **C65** is violated when only cross association is declared: the bonding volume of the cross
library is ignored and no bonding matrix is returned. -/
theorem c65_violated_cross_only :
    ((calcAssoc (K := ℚ) id id
      { nb := 2, ns := 2, nk := fun i a => if i = a then 1 else 0
        slf := { eps := fun _ _ _ => none, vol := fun _ _ _ => none, rc := fun _ _ _ => none,
                 rd := fun _ _ _ => none }
        cross := { eps := fun p a b => if p = (0, 1) ∧ a = 0 ∧ b = 1 then some 100 else none
                   vol := fun p a b => if p = (0, 1) ∧ a = 0 ∧ b = 1 then some 2 else none
                   rc := fun _ _ _ => none, rd := fun _ _ _ => none } }).toOption.map
        fun m => (m.eps 0 1 0 1, m.vol 0 1 0 1, m.fK, m.frc)) = some (100, 0, false, false) := by
  decide +kernel

/-- The hypotheses of `c65_partial` are met: in the second order of `c65_violated_lost`. -/
example : ∃ m, calcAssoc id id (twoGroups fun p a b =>
    if p.1 = 1 ∧ p.2 = 0 ∧ a = 0 ∧ b = 1 then some 100 else none) = .ok m ∧ m.eps 1 0 0 1 = 100 := by
  have h : ((calcAssoc id id (twoGroups fun p a b =>
      if p.1 = 1 ∧ p.2 = 0 ∧ a = 0 ∧ b = 1 then some 100 else none)).toOption.map
        fun m => m.fK) = some true := by decide +kernel
  cases e : calcAssoc id id (twoGroups fun p a b =>
      if p.1 = 1 ∧ p.2 = 0 ∧ a = 0 ∧ b = 1 then some 100 else none) with
  | error _ => rw [e] at h; cases h
  | ok m =>
    exact ⟨m, rfl, c65_partial id id _ (i0 := 1) (j0 := 0) (a0 := 0) (b0 := 1) (v := 100)
      (by decide) (by decide) (by decide) (by decide) (by decide) (by decide)
      (fun i j a b => rfl) (by decide) (by decide) (by intro j hj; omega) e⟩

/-! ## C67: optional arguments -/

/-- **C67** is violated: leaving out the optional arguments `nk` and `sitenames` always raises. -/
theorem c67_violated (keys : List String) (groups : Bool) (u : Unit) :
    calcAssocDefault keys groups ≠ .ok u := by
  unfold calcAssocDefault
  split
  · simp
  · split <;> simp

/-- C67: which exception it is: `TypeError` unless the library is empty, and then `IndexError` if some component has a group,
and otherwise the `UnboundLocalError` of `nsitesmax`. -/
theorem c67_violated_how (groups : Bool) :
    (∀ key keys, calcAssocDefault (key :: keys) groups = .error .typeError) ∧
      calcAssocDefault [] true = .error .indexError ∧ calcAssocDefault [] false = .error .unboundLocal :=
  ⟨fun _ _ => rfl, rfl, rfl⟩

end Verif.Props
