import Verif.PropColl.Props
import Verif.PropColl.Flags

/-! # C102: what a collection says of itself as a whole -/

namespace Verif.PropColl
open Verif.Py

/-- all members have the same value of an attribute -/
def AllSame {α : Type} (l : List α) : Prop := ∀ x ∈ l, ∀ y ∈ l, x = y

theorem singleScan_some {α : Type} [DecidableEq α] (c : α) : ∀ l : List (Option α),
    singleScan (some c) l = true ↔ ∀ x ∈ l, x = some c
  | [] => by simp [singleScan]
  | v :: t => by
    unfold singleScan
    by_cases h : v = some c
    · rw [if_pos h, singleScan_some c t]; simp [h]
    · rw [if_neg h]; simp [h]

theorem singleScan_none {α : Type} [DecidableEq α] : ∀ l : List (Option α), (∀ x ∈ l, x ≠ none) →
    (singleScan none l = true ↔ AllSame l)
  | [], _ => by simp [singleScan, AllSame]
  | none :: t, h => absurd rfl (h none List.mem_cons_self)
  | some v :: t, h => by
    unfold singleScan
    rw [singleScan_some]
    constructor
    · intro hall x hx y hy
      have : ∀ z ∈ some v :: t, z = some v := by
        intro z hz
        rcases List.mem_cons.mp hz with rfl | hz
        · rfl
        · exact hall z hz
      rw [this x hx, this y hy]
    · intro hall x hx
      exact hall x (List.mem_cons_of_mem _ hx) _ List.mem_cons_self

/-- A collection asked for the first time whether it has a single property kind, indexable element or unit of measure
answers rightly, if every member has one.  Missing from the full claim: the answer after the collection has
changed, and members without a unit; see below. -/
theorem C102_single_partial (c : Coll) :
    (c.singleKind = none → (∀ p ∈ c.parts, p.kind ≠ none) →
      ((hasSingleKind c).2 = true ↔ AllSame (c.parts.map (·.kind)))) ∧
    (c.singleIndexable = none → (∀ p ∈ c.parts, p.indexable ≠ none) →
      ((hasSingleIndexable c).2 = true ↔ AllSame (c.parts.map (·.indexable)))) ∧
    (c.singleUom = none → (∀ p ∈ c.parts, p.uom ≠ none) →
      ((hasSingleUom c).2 = true ↔ AllSame (c.parts.map (·.uom)))) := by
  refine ⟨?_, ?_, ?_⟩
  · intro h hall
    unfold hasSingleKind; rw [h]
    exact singleScan_none _ (by simpa using hall)
  · intro h hall
    unfold hasSingleIndexable; rw [h]
    exact singleScan_none _ (by simpa using hall)
  · intro h hall
    unfold hasSingleUom; rw [h]
    exact singleScan_none _ (by simpa using hall)

/-- The answer about units of measure depends on the order of the members: one without a unit followed by one in
metres is reported as having a single unit, the other way round as not. -/
theorem C102_uom_order_violated : ∃ p q : Part, p.name ≠ q.name ∧ p.uom ≠ q.uom ∧
    (hasSingleUom { parts := [p, q] }).2 = true ∧ (hasSingleUom { parts := [q, p] }).2 = false :=
  ⟨{ name := 1 }, { name := 2, uom := some ['m'] }, by decide, by decide, by decide, by decide⟩

/-- Once asked, a collection goes on giving the same answer however its members change: after inheriting a part of
another kind it still says that it has a single kind. -/
theorem C102_stale_violated : ∃ c o : Coll, Keyed c.parts ∧ Keyed o.parts ∧ c.singleKind = none ∧
    (hasSingleKind c).2 = true ∧ (inheritAll (hasSingleKind c).1 o false).2 = none ∧
    (hasSingleKind (inheritAll (hasSingleKind c).1 o false).1).2 = true ∧
    ¬ AllSame ((inheritAll (hasSingleKind c).1 o false).1.parts.map (·.kind)) := by
  refine ⟨{ parts := [{ name := 1, kind := some ['a'] }] }, { parts := [{ name := 2, kind := some ['b'] }] }, by decide,
    by decide, rfl, by decide, by decide, by decide, ?_⟩
  intro h
  have := h (some ['a']) (by decide) (some ['b']) (by decide)
  simp at this

/-- For every collection: the answers do not change when members are inherited or removed. -/
theorem C102_stale (c o : Coll) (ig : Bool) (n : Nat) (h : c.singleKind ≠ none) :
    (hasSingleKind (inheritAll c o ig).1).2 = (hasSingleKind c).2 ∧ (hasSingleKind (removePart c n)).2 = (hasSingleKind c).2 := by
  obtain ⟨b, hb⟩ := Option.ne_none_iff_exists'.mp h
  have hadopt : ∀ c' : Coll, c'.singleKind = some b → (adoptSupport c' o).singleKind = some b := by
    intro c' hc'; unfold adoptSupport; split <;> exact hc'
  have h1 : (inheritAll c o ig).1.singleKind = some b := by
    unfold inheritAll
    split
    · exact hb
    · split
      · exact hadopt c hb
      · exact hadopt c hb
  have h2 : (removePart c n).singleKind = some b := hb
  simp only [hasSingleKind, h1, h2, hb, and_self]

theorem multipleScan_some (c : Int) : ∀ l : List (Option Int),
    ((multipleScan (some c) l).1 = true ↔ ∃ r, some r ∈ l ∧ r ≠ c) ∧
    (multipleScan (some c) l).2 = some c
  | [] => by simp [multipleScan]
  | none :: t => by
    unfold multipleScan
    refine ⟨?_, (multipleScan_some c t).2⟩
    rw [(multipleScan_some c t).1]; simp
  | some r :: t => by
    unfold multipleScan
    by_cases h : r ≠ c
    · rw [if_pos h]
      exact ⟨⟨fun _ => ⟨r, by simp, h⟩, fun _ => rfl⟩, rfl⟩
    · rw [if_neg h]
      refine ⟨?_, (multipleScan_some c t).2⟩
      rw [(multipleScan_some c t).1]
      push Not at h
      subst h
      constructor
      · rintro ⟨x, hx, hne⟩; exact ⟨x, List.mem_cons_of_mem _ hx, hne⟩
      · rintro ⟨x, hx, hne⟩
        rcases List.mem_cons.mp hx with hx | hx
        · cases hx; exact absurd rfl hne
        · exact ⟨x, hx, hne⟩

theorem multipleScan_none : ∀ l : List (Option Int),
    ((multipleScan none l).1 = true ↔ ∃ r s, some r ∈ l ∧ some s ∈ l ∧ r ≠ s) ∧
    (∀ r, (multipleScan none l).2 = some r → some r ∈ l) ∧
    ((multipleScan none l).2 = none → ∀ x ∈ l, x = none)
  | [] => by simp [multipleScan]
  | none :: t => by
    unfold multipleScan
    obtain ⟨h1, h2, h3⟩ := multipleScan_none t
    refine ⟨?_, ?_, ?_⟩
    · rw [h1]; simp
    · intro r hr; exact List.mem_cons_of_mem _ (h2 r hr)
    · intro h x hx
      rcases List.mem_cons.mp hx with rfl | hx
      · rfl
      · exact h3 h x hx
  | some c :: t => by
    unfold multipleScan
    obtain ⟨h1, h2⟩ := multipleScan_some c t
    refine ⟨?_, ?_, ?_⟩
    · rw [h1]
      constructor
      · rintro ⟨r, hr, hne⟩; exact ⟨r, c, List.mem_cons_of_mem _ hr, List.mem_cons_self, hne⟩
      · rintro ⟨r, s, hr, hs, hne⟩
        by_cases hrc : r = c
        · subst hrc
          rcases List.mem_cons.mp hs with hs | hs
          · cases hs; exact absurd rfl hne
          · exact ⟨s, hs, fun h => hne h.symm⟩
        · rcases List.mem_cons.mp hr with hr | hr
          · cases hr; exact absurd rfl hrc
          · exact ⟨r, hr, hrc⟩
    · intro r hr
      rw [h2] at hr; cases hr; exact List.mem_cons_self
    · intro h; rw [h2] at h; cases h

/-- Re-evaluating whether there are several realizations: it is so exactly if two members have different
realizations; the realization of the whole collection is then none, otherwise it is that of the members which have one. -/
theorem C102_multiple_realizations (c : Coll) :
    ((establishMultiple c).multipleRealizations = some true ↔
      ∃ p ∈ c.parts, ∃ q ∈ c.parts, ∃ r s, p.realization = some r ∧ q.realization = some s ∧ r ≠ s) ∧
    ((establishMultiple c).multipleRealizations ≠ none) ∧
    ((establishMultiple c).multipleRealizations = some true → (establishMultiple c).realization = none) ∧
    ((establishMultiple c).multipleRealizations = some false → ∀ p ∈ c.parts, ∀ r, p.realization = some r →
      (establishMultiple c).realization = some r) := by
  obtain ⟨h1, h2, h3⟩ := multipleScan_none (c.parts.map (·.realization))
  have hiff : (multipleScan none (c.parts.map (·.realization))).1 = true ↔
      ∃ p ∈ c.parts, ∃ q ∈ c.parts, ∃ r s, p.realization = some r ∧ q.realization = some s ∧ r ≠ s := by
    rw [h1]
    constructor
    · rintro ⟨r, s, hr, hs, hne⟩
      obtain ⟨p, hp, hpr⟩ := List.mem_map.mp hr
      obtain ⟨q, hq, hqs⟩ := List.mem_map.mp hs
      exact ⟨p, hp, q, hq, r, s, hpr, hqs, hne⟩
    · rintro ⟨p, hp, q, hq, r, s, hpr, hqs, hne⟩
      exact ⟨r, s, List.mem_map.mpr ⟨p, hp, hpr⟩, List.mem_map.mpr ⟨q, hq, hqs⟩, hne⟩
  refine ⟨?_, by simp [establishMultiple], ?_, ?_⟩
  · rw [← hiff]; simp [establishMultiple]
  · intro h
    simp only [establishMultiple, Option.some.injEq] at h ⊢
    rw [if_pos h]
  · intro h p hp r hpr
    simp only [establishMultiple, Option.some.injEq] at h ⊢
    rw [if_neg (by simp [h])]
    cases hx : (multipleScan none (c.parts.map (·.realization))).2 with
    | none =>
      have := h3 hx p.realization (List.mem_map.mpr ⟨p, hp, rfl⟩)
      rw [hpr] at this; cases this
    | some r' =>
      have hmem := h2 r' hx
      by_cases hrr : r' = r
      · simp [hrr]
      · exfalso
        have : (multipleScan none (c.parts.map (·.realization))).1 = true :=
          h1.mpr ⟨r', r, hmem, List.mem_map.mpr ⟨p, hp, hpr⟩, hrr⟩
        rw [h] at this; cases this

theorem timeScan_some (i : Int) (u : Nat) : ∀ l : List (Option Int × Option Nat),
    timeScan (some i) (some u) l = true ↔ ∀ x ∈ l, x = (some i, some u)
  | [] => by simp [timeScan]
  | (ti, ts) :: t => by
    unfold timeScan
    cases ti with
    | none => simp
    | some j =>
      by_cases hj : j = i
      · subst hj
        cases ts with
        | none => simp
        | some v =>
          by_cases hv : v = u
          · subst hv
            simp [timeScan_some j v t]
          · have hv' : u ≠ v := fun h => hv h.symm
            simp [hv, hv']
      · have hj' : i ≠ j := fun h => hj h.symm
        simp [hj, hj']

/-- Re-evaluating the time set kind: 'single time' exactly if all members have one and the same time index in one and
the same time series. -/
theorem C102_time_set (c : Coll) :
    (establishTime c).timeSetKind = some true ↔
      (c.parts = [] ∨ ∃ i u, ∀ p ∈ c.parts, p.timeIndex = some i ∧ p.timeSeries = some u) := by
  simp only [establishTime, Option.some.injEq]
  cases hl : c.parts with
  | nil => simp [timeScan]
  | cons p t =>
    simp only [List.map_cons]
    unfold timeScan
    cases hti : p.timeIndex with
    | none => simp [hti]
    | some i =>
      cases hts : p.timeSeries with
      | none => simp [hts]
      | some u =>
        simp only [Option.isSome_none, Bool.false_and, Bool.false_eq_true, if_false]
        rw [timeScan_some]
        constructor
        · intro h
          refine Or.inr ⟨i, u, ?_⟩
          intro x hx
          rcases List.mem_cons.mp hx with rfl | hx
          · exact ⟨hti, hts⟩
          · have := h _ (List.mem_map.mpr ⟨x, hx, rfl⟩)
            simp only [Prod.mk.injEq] at this
            exact this
        · rintro (h | ⟨i', u', h⟩) x hx
          · cases h
          · obtain ⟨y, hy, rfl⟩ := List.mem_map.mp hx
            have h0 := h p List.mem_cons_self
            have h1 := h y (List.mem_cons_of_mem _ hy)
            rw [h1.1, h1.2, ← h0.1, ← h0.2, hti, hts]

theorem number_eq : ∀ (l : List Part) (r : Int), number r l = l.mapIdx fun i p => { p with realization := some (r + i) }
  | [], _ => rfl
  | p :: t, r => by
    simp only [number, List.mapIdx_cons, number_eq t (r + 1)]
    refine List.cons_eq_cons.mpr ⟨by simp, ?_⟩
    congr 1
    funext i p
    have : r + 1 + (i : Int) = r + ((i + 1 : Nat) : Int) := by push_cast; omega
    rw [this]

theorem hasSingleKind_parts (c : Coll) : (hasSingleKind c).1.parts = c.parts := by
  unfold hasSingleKind; split <;> rfl
theorem hasSingleIndexable_parts (c : Coll) : (hasSingleIndexable c).1.parts = c.parts := by
  unfold hasSingleIndexable; split <;> rfl
theorem hasSingleUom_parts (c : Coll) : (hasSingleUom c).1.parts = c.parts := by
  unfold hasSingleUom; split <;> rfl

/-- Numbering the members as realizations: the member at position `i` gets realization `i` and is otherwise unchanged;
nothing is added or lost. -/
theorem C102_assign_realizations (c c' : Coll) (h : assignRealizations c = .ok c') :
    c'.parts.length = c.parts.length ∧
    ∀ (i : Nat) (p : Part), c.parts[i]? = some p → c'.parts[i]? = some { p with realization := some (i : Int) } := by
  have hp : c'.parts = number 0 c.parts := by
    unfold assignRealizations at h
    simp only at h
    split at h
    · cases h
    · split at h
      · cases h
      · split at h
        · cases h
        · cases h
          show number 0 (hasSingleUom _).1.parts = _
          rw [hasSingleUom_parts, hasSingleIndexable_parts, hasSingleKind_parts]
  rw [hp, number_eq]
  refine ⟨by simp, ?_⟩
  intro i p hip
  rw [List.getElem?_mapIdx, hip]
  simp

example : (match assignRealizations { parts := [{ name := 1, kind := some ['a'] }, { name := 2, kind := some ['a'] }] } with
    | .ok c => decide (c.parts.map (·.realization) = [some 0, some 1]) && decide (c.multipleRealizations = some true)
    | .error _ => false) = true ∧
    assignRealizations { parts := [{ name := 1, kind := some ['a'] }, { name := 2, kind := some ['b'] }] } =
      .error .assertion := by
  refine ⟨by decide, rfl⟩

example : (hasSingleKind exColl).2 = false ∧ (hasMultiple exColl).2 = true ∧ (timeSetKind exColl).2 = false ∧
    (hasSingleUom exColl).2 = true := by decide +kernel

example : exColl.singleIndexable = none ∧
    (∀ p ∈ (exColl.parts.take 2), p.indexable ≠ none) ∧ (establishMultiple exColl).multipleRealizations = some true := by
  decide +kernel

end Verif.PropColl
