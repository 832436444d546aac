import Verif.PropColl.Lemmas

/-! # C100, C101: selecting properties from a collection; inheriting properties -/

namespace Verif.PropColl
open Verif.Py

theorem supportClash_false (a b : Option Nat) (h : a = none ∨ b = none ∨ a = b) : supportClash a b = false := by
  rcases h with h | h | h
  · subst h; rfl
  · subst h; cases a <;> rfl
  · subst h; cases a <;> simp [supportClash]

theorem timeIndex_ok (a : Arg Int) (h : a = .unset ∨ ∃ n, a = .is n ∧ 0 ≤ n) : timeIndexError a = none := by
  rcases h with rfl | ⟨n, rfl, hn⟩
  · rfl
  · simp [timeIndexError, hn]

theorem viewRealization_ok (a : Arg Int) (b : Option Int)
    (h : a = .unset ∨ b = none ∨ ∃ r, a = .is r ∧ b = some r) : viewRealizationClash a b = false := by
  rcases h with rfl | rfl | ⟨r, rfl, rfl⟩
  · rfl
  · cases a <;> rfl
  · simp [viewRealizationClash]

open scoped Classical in
/-- Selecting from a collection gives exactly the members that pass all the filters, in their order, for every
collection and every acceptable query that does not use `uom` and uses '*' and 'none' neither for the property kind
nor for the time index.  Missing from the full claim: those arguments, see the three theorems below. -/
theorem C100_select_partial (rel : Related) (c : Coll) (q : Query) (hk : Keyed c.parts) (ha : Acceptable rel c q)
    (hu : q.uom = .unset) (hkind : q.kind = .unset ∨ ∃ s, q.kind = .is s)
    (ht : q.timeIndex = .unset ∨ ∃ n, q.timeIndex = .is n) :
    selectiveVersion rel c q = .ok (c.parts.filter fun p => decide (Matches rel q p)) := by
  have hsk := fun p => skipped_ok rel q p ha.mode ha.related ha.extra hkind hu
  have hti : timeIndexError q.timeIndex = none := by
    apply timeIndex_ok
    rcases ht with h | ⟨n, h⟩
    · exact Or.inl h
    · exact Or.inr ⟨n, h, ha.timeIndex n h⟩
  unfold selectiveVersion
  rw [supportClash_false _ _ ha.support, viewRealization_ok _ _ ha.realization, hti,
    addSelected_ok rel q false hsk c.parts [] hk (Or.inr (by simp))]
  simp

/-- Asking for a unit of measure has no effect: a property in feet is selected by a request for metres. -/
theorem C100_uom_ignored_violated : ∃ (rel : Related) (c : Coll) (q : Query), Keyed c.parts ∧ Acceptable rel c q ∧
    q.uom = .is ['m'] ∧ ∃ l, selectiveVersion rel c q = .ok l ∧ ∃ p ∈ l, p.uom = some ['f', 't'] ∧ ¬ Matches rel q p := by
  refine ⟨none, { parts := [{ name := 1, uom := some ['f', 't'] }] }, { uom := .is ['m'] }, by simp [Keyed], ?_, rfl,
    [{ name := 1, uom := some ['f', 't'] }], by decide +kernel, _, List.mem_cons_self, rfl, ?_⟩
  · exact ⟨Or.inl rfl, Or.inl rfl, Or.inl rfl, by simp, Or.inl rfl, by simp⟩
  · intro h
    have := h.uom
    simp [Passes] at this

/-- Any request made with a unit of measure gives the same answer as the request without it. -/
theorem C100_uom_ignored (rel : Related) (c : Coll) (q : Query) (u : Arg Str) :
    selectiveVersion rel c { q with uom := u } = selectiveVersion rel c q := by
  have hsk : ∀ p, skipped rel { q with uom := u } p = skipped rel q p := fun p => rfl
  have hadd : ∀ (l d : List Part), addSelected rel { q with uom := u } false d l = addSelected rel q false d l := by
    intro l
    induction l with
    | nil => intro d; rfl
    | cons p t ih => intro d; simp only [addSelected, hsk, ih]
  simp only [selectiveVersion, hadd]

/-- '*' for the property kind, documented to let any kind pass, selects nothing. -/
theorem C100_any_kind_violated : ∃ (rel : Related) (c : Coll) (q : Query), Keyed c.parts ∧ Acceptable rel c q ∧
    q.kind = .any ∧ (∃ p ∈ c.parts, Matches rel q p) ∧ selectiveVersion rel c q = .ok [] := by
  refine ⟨none, { parts := [{ name := 1, kind := some "porosity".toList }] }, { kind := .any }, by simp [Keyed], ?_, rfl,
    ⟨_, List.mem_cons_self, ?_⟩, by decide +kernel⟩
  · exact ⟨Or.inl rfl, Or.inl rfl, Or.inl rfl, by simp, Or.inl rfl, by simp⟩
  · constructor <;> simp [Passes, PassesKind, HasExtra]

/-- '*' for the time index, documented to select the recurrent properties, raises TypeError whatever the
collection. -/
theorem C100_any_time_index_violated (rel : Related) (c : Coll) (q : Query) (hr : q.realization = .unset)
    (hs : q.support = none) (ht : q.timeIndex = .any) : selectiveVersion rel c q = .error .type := by
  unfold selectiveVersion
  rw [supportClash_false _ _ (Or.inl hs), viewRealization_ok _ _ (Or.inl hr), ht]
  rfl

/-- `singleton`: None if no member passes the filters, the member if exactly one does, and an assertion error if
several do. -/
theorem C100_singleton_partial (rel : Related) (c : Coll) (q : Query) (hk : Keyed c.parts) (ha : Acceptable rel c q)
    (hu : q.uom = .unset) (hkind : q.kind = .unset ∨ ∃ s, q.kind = .is s)
    (ht : q.timeIndex = .unset ∨ ∃ n, q.timeIndex = .is n) :
    ((∀ p ∈ c.parts, ¬ Matches rel q p) → singleton rel c q .exception = .ok none) ∧
    (∀ p ∈ c.parts, Matches rel q p → (∀ p' ∈ c.parts, Matches rel q p' → p' = p) →
      singleton rel c q .exception = .ok (some p)) ∧
    (∀ p ∈ c.parts, ∀ p' ∈ c.parts, Matches rel q p → Matches rel q p' → p ≠ p' →
      singleton rel c q .exception = .error .assertion) := by
  classical
  have hsel := C100_select_partial rel c q hk ha hu hkind ht
  have hnd : (c.parts.filter fun p => decide (Matches rel q p)).Nodup := (List.Nodup.of_map _ hk).filter _
  have hmem : ∀ p, p ∈ (c.parts.filter fun p => decide (Matches rel q p)) ↔ p ∈ c.parts ∧ Matches rel q p := by
    intro p; simp [List.mem_filter]
  unfold singleton
  rw [hsel]
  generalize (c.parts.filter fun p => decide (Matches rel q p)) = l at hnd hmem
  refine ⟨?_, ?_, ?_⟩
  · intro h
    cases l with
    | nil => rfl
    | cons x t => exact absurd ((hmem x).mp List.mem_cons_self).2 (h x ((hmem x).mp List.mem_cons_self).1)
  · intro p hp hm hall
    match l, hnd, hmem with
    | [], _, hmem => exact absurd ((hmem p).mpr ⟨hp, hm⟩) (by simp)
    | [x], _, hmem =>
      have := (hmem p).mpr ⟨hp, hm⟩
      simp only [List.mem_cons, List.not_mem_nil, or_false] at this
      rw [this]
    | x :: y :: t, hnd, hmem =>
      exfalso
      have hx := (hmem x).mp List.mem_cons_self
      have hy := (hmem y).mp (List.mem_cons_of_mem _ List.mem_cons_self)
      have : x = y := (hall x hx.1 hx.2).trans (hall y hy.1 hy.2).symm
      subst this
      simp at hnd
  · intro p hp p' hp' hm hm' hne
    match l, hmem with
    | [], hmem => exact absurd ((hmem p).mpr ⟨hp, hm⟩) (by simp)
    | [x], hmem =>
      have h1 := (hmem p).mpr ⟨hp, hm⟩
      have h2 := (hmem p').mpr ⟨hp', hm'⟩
      simp only [List.mem_cons, List.not_mem_nil, or_false] at h1 h2
      exact absurd (h1.trans h2.symm) hne
    | x :: y :: t, _ => simp

/-- three properties: porosity for two realizations and a permeability under its other name -/
def exColl : Coll :=
  { parts := [{ name := 1, realization := some 0, kind := some "porosity".toList, title := "por one".toList, indexable := some "cells".toList, timeSeries := some 9, timeIndex := some 0 },
      { name := 2, realization := some 1, kind := some "porosity".toList, title := "por one".toList, indexable := some "cells".toList, timeSeries := some 9, timeIndex := some 2 },
      { name := 3, kind := some "permeability rock".toList, title := "perm".toList, facetType := some "direction".toList, facet := some "I".toList }] }

/-- the query `title = 'por', title_mode = 'starts', realization = 1` -/
def exQuery : Query := { realization := .is 1, title := some "por".toList, mode := .text "starts".toList }

example : Keyed exColl.parts ∧ Acceptable none exColl exQuery ∧ exQuery.uom = .unset ∧
    (exQuery.kind = .unset ∨ ∃ s, exQuery.kind = .is s) ∧ (exQuery.timeIndex = .unset ∨ ∃ n, exQuery.timeIndex = .is n) ∧
    (match selectiveVersion none exColl exQuery with
      | .ok l => decide (l.map (·.name) = [2]) | .error _ => false) = true :=
  ⟨by decide, ⟨Or.inr (Or.inl rfl), Or.inl rfl, Or.inr ⟨"starts".toList, by decide, rfl⟩, by simp [exQuery], Or.inl rfl,
    by simp [exQuery]⟩, rfl, Or.inl rfl, Or.inl rfl, by decide +kernel⟩

example : (match singleton none exColl { kind := .is "rock permeability".toList } .exception with
      | .ok (some p) => decide (p.name = 3) | _ => false) = true ∧
    singleton none exColl { kind := .is "porosity".toList } .exception = .error .assertion ∧
    singleton none exColl { kind := .is "depth".toList } .exception = .ok none := by decide +kernel

/-! ### inheriting -/

theorem realizationClash_false (a b : Option Int) (h : a = none ∨ b = none ∨ a = b) : realizationClash a b = false := by
  rcases h with h | h | h
  · subst h; rfl
  · subst h; cases a <;> rfl
  · subst h; cases a <;> simp [realizationClash]

theorem adopt_parts (c o : Coll) : (adoptSupport c o).parts = c.parts := by
  unfold adoptSupport; split <;> rfl

open scoped Classical in
/-- Inheriting selectively adds after the members already there exactly the other collection's members that pass
the filters, in their order, without those whose part name is already there; if such a clash is not to be ignored
it raises an assertion error. -/
theorem C101_inherit_selectively_partial (rel : Related) (c o : Coll) (q : Query) (ig : Bool) (hk : Keyed o.parts)
    (ha : Acceptable rel o q) (hu : q.uom = .unset) (hkind : q.kind = .unset ∨ ∃ s, q.kind = .is s)
    (ht : q.timeIndex = .unset ∨ ∃ n, q.timeIndex = .is n)
    (hr : c.realization = none ∨ o.realization = none ∨ c.realization = o.realization)
    (hs : c.support = none ∨ o.support = none ∨ c.support = o.support)
    (hs' : q.support = none ∨ c.support = none ∨ q.support = c.support) :
    ((ig = true ∨ ∀ p ∈ o.parts, Matches rel q p → p.name ∉ c.parts.map (·.name)) →
      (inheritSelectively rel c o q ig).2 = none ∧
      (inheritSelectively rel c o q ig).1.parts =
        c.parts ++ o.parts.filter (fun p => decide (Matches rel q p ∧ p.name ∉ c.parts.map (·.name)))) ∧
    (ig = false → (∃ p ∈ o.parts, Matches rel q p ∧ p.name ∈ c.parts.map (·.name)) →
      (inheritSelectively rel c o q ig).2 = some .assertion) := by
  have hsk := fun p => skipped_ok rel q p ha.mode ha.related ha.extra hkind hu
  have hti : timeIndexError q.timeIndex = none := by
    apply timeIndex_ok
    rcases ht with h | ⟨n, h⟩
    · exact Or.inl h
    · exact Or.inr ⟨n, h, ha.timeIndex n h⟩
  have hunf : inheritSelectively rel c o q ig =
      ({ adoptSupport c o with parts := (addSelected rel q ig c.parts o.parts).1 },
        (addSelected rel q ig c.parts o.parts).2) := by
    unfold inheritSelectively
    rw [supportClash_false _ _ hs', supportClash_false _ _ hs, realizationClash_false _ _ hr, hti]
    rfl
  refine ⟨?_, ?_⟩
  · intro h
    rw [hunf, addSelected_ok rel q ig hsk o.parts c.parts hk h]
    exact ⟨rfl, rfl⟩
  · intro hig h
    subst hig
    rw [hunf]
    exact addSelected_clash rel q hsk o.parts c.parts h

/-- Inheriting all parts: those already there stay as they are, the others follow in order; a clash that is not to
be ignored raises. -/
theorem C101_inherit_all (c o : Coll) (ig : Bool) (hk : Keyed o.parts)
    (hr : c.realization = none ∨ o.realization = none ∨ c.realization = o.realization)
    (hs : c.support = none ∨ o.support = none ∨ c.support = o.support)
    (hc : ig = true ∨ ∀ p ∈ o.parts, p.name ∉ c.parts.map (·.name)) :
    (inheritAll c o ig).2 = none ∧
    (inheritAll c o ig).1.parts = c.parts ++ o.parts.filter (fun p => decide (p.name ∉ c.parts.map (·.name))) ∧
    (Keyed c.parts → Keyed (inheritAll c o ig).1.parts) := by
  have hunf : inheritAll c o ig =
      ({ adoptSupport c o with parts := (addAll ig c.parts o.parts).1 }, (addAll ig c.parts o.parts).2) := by
    unfold inheritAll
    rw [supportClash_false _ _ hs, realizationClash_false _ _ hr]
    rfl
  rw [hunf, addAll_eq ig o.parts c.parts hk hc]
  refine ⟨rfl, rfl, ?_⟩
  intro hkc
  show Keyed (c.parts ++ _)
  unfold Keyed at *
  rw [List.map_append, List.nodup_append]
  refine ⟨hkc, ?_, ?_⟩
  · exact (List.filter_sublist.map _).nodup hk
  · intro a ha b hb hab
    subst hab
    obtain ⟨p, hp, rfl⟩ := List.mem_map.mp hb
    have := (List.mem_filter.mp hp).2
    simp only [decide_eq_true_eq] at this
    exact this ha

/-- Whatever the arguments and whatever happens, no member already in the collection is lost or altered. -/
theorem C101_members_kept (rel : Related) (c o : Coll) (q : Query) (ig : Bool) :
    c.parts <+: (inheritSelectively rel c o q ig).1.parts := by
  unfold inheritSelectively
  split
  · exact List.prefix_rfl
  · split
    · exact List.prefix_rfl
    · split
      · show c.parts <+: (adoptSupport c o).parts
        rw [adopt_parts]
      · split
        · show c.parts <+: (adoptSupport c o).parts
          rw [adopt_parts]
        · exact addSelected_prefix rel q ig o.parts c.parts

theorem passes_like {α : Type} (e p : Option α) : Passes (like e) p ↔ Same e p := by
  cases e <;> simp [like, Passes, Same]

theorem kind_like (e p : Option Str) :
    PassesKind (like e) p ↔ ∀ k, e = some k → ∃ k', p = some k' ∧ SameKind k' k := by
  cases e <;> simp [like, PassesKind]

theorem like_form {α : Type} (e : Option α) : like e = .unset ∨ ∃ s, like e = .is s := by
  cases e with
  | none => exact Or.inl rfl
  | some v => exact Or.inr ⟨v, rfl⟩

theorem title_is (e p : Part) :
    (∀ t, some e.title = some t → ∃ m, Means .unset m ∧ PassesTitle t m p.title) ↔ p.title = e.title := by
  constructor
  · intro h
    obtain ⟨m, hm, hp⟩ := h e.title rfl
    have hm' : m = "is".toList := hm
    subst hm'
    simpa [PassesTitle] using hp
  · intro h t ht
    cases ht
    exact ⟨"is".toList, rfl, by simp [PassesTitle, h]⟩

theorem matches_timeSeries (rel : Related) (e p : Part) : Matches rel (timeSeriesQuery e .unset) p ↔
    Alike e p ∧ Same e.realization p.realization ∧ Same e.facetType p.facetType ∧ Same e.facet p.facet ∧
      Same e.timeSeries p.timeSeries := by
  constructor
  · intro h
    refine ⟨⟨fun v hv => h.support v hv, ?_, ?_, ?_, ?_, ?_⟩, ?_, ?_, ?_, ?_⟩
    · exact Option.some.inj h.continuous
    · exact Option.some.inj h.points
    · exact (passes_like _ _).mp h.indexable
    · exact (kind_like _ _).mp h.kind
    · exact (title_is e p).mp h.title
    · exact (passes_like _ _).mp h.realization
    · exact (passes_like _ _).mp h.facetType
    · exact (passes_like _ _).mp h.facet
    · exact (passes_like _ _).mp h.timeSeries
  · rintro ⟨ha, h1, h2, h3, h4⟩
    exact { realization := (passes_like _ _).mpr h1, support := fun s hs => ha.support s hs, uuid := trivial, continuous := congrArg some ha.continuous, categorical := by simp [timeSeriesQuery], count := trivial, points := congrArg some ha.points, indexable := (passes_like _ _).mpr ha.indexable, kind := (kind_like _ _).mpr ha.kind, facetType := (passes_like _ _).mpr h2, facet := (passes_like _ _).mpr h3, title := (title_is e p).mpr ha.title, timeSeries := (passes_like _ _).mpr h4, timeIndex := trivial, uom := trivial, stringLookup := trivial, related := by simp [timeSeriesQuery], const := trivial, extra := by simp [timeSeriesQuery, HasExtra] }

theorem matches_realizations (rel : Related) (e p : Part) : Matches rel (realizationsQuery e .unset) p ↔
    Alike e p ∧ Same e.facetType p.facetType ∧ Same e.facet p.facet ∧
      Same e.timeSeries p.timeSeries ∧ Same e.timeIndex p.timeIndex := by
  constructor
  · intro h
    refine ⟨⟨fun v hv => h.support v hv, ?_, ?_, ?_, ?_, ?_⟩, ?_, ?_, ?_, ?_⟩
    · exact Option.some.inj h.continuous
    · exact Option.some.inj h.points
    · exact (passes_like _ _).mp h.indexable
    · exact (kind_like _ _).mp h.kind
    · exact (title_is e p).mp h.title
    · exact (passes_like _ _).mp h.facetType
    · exact (passes_like _ _).mp h.facet
    · exact (passes_like _ _).mp h.timeSeries
    · exact (passes_like _ _).mp h.timeIndex
  · rintro ⟨ha, h2, h3, h4, h5⟩
    exact { realization := trivial, support := fun s hs => ha.support s hs, uuid := trivial, continuous := congrArg some ha.continuous, categorical := by simp [realizationsQuery], count := trivial, points := congrArg some ha.points, indexable := (passes_like _ _).mpr ha.indexable, kind := (kind_like _ _).mpr ha.kind, facetType := (passes_like _ _).mpr h2, facet := (passes_like _ _).mpr h3, title := (title_is e p).mpr ha.title, timeSeries := (passes_like _ _).mpr h4, timeIndex := (passes_like _ _).mpr h5, uom := trivial, stringLookup := trivial, related := by simp [realizationsQuery], const := trivial, extra := by simp [realizationsQuery, HasExtra] }

theorem matches_facets (rel : Related) (e p : Part) (hp : e.points = false) : Matches rel (facetsQuery e .unset) p ↔
    Alike e p ∧ Same e.realization p.realization ∧ Same e.timeSeries p.timeSeries ∧ Same e.timeIndex p.timeIndex := by
  constructor
  · intro h
    refine ⟨⟨fun v hv => h.support v hv, ?_, ?_, ?_, ?_, ?_⟩, ?_, ?_, ?_⟩
    · exact Option.some.inj h.continuous
    · rw [hp]; exact Option.some.inj h.points
    · exact (passes_like _ _).mp h.indexable
    · exact (kind_like _ _).mp h.kind
    · exact (title_is e p).mp h.title
    · exact (passes_like _ _).mp h.realization
    · exact (passes_like _ _).mp h.timeSeries
    · exact (passes_like _ _).mp h.timeIndex
  · rintro ⟨ha, h1, h4, h5⟩
    exact { realization := (passes_like _ _).mpr h1, support := fun s hs => ha.support s hs, uuid := trivial, continuous := congrArg some ha.continuous, categorical := by simp [facetsQuery], count := trivial, points := congrArg some (ha.points.trans hp), indexable := (passes_like _ _).mpr ha.indexable, kind := (kind_like _ _).mpr ha.kind, facetType := trivial, facet := trivial, title := (title_is e p).mpr ha.title, timeSeries := (passes_like _ _).mpr h4, timeIndex := (passes_like _ _).mpr h5, uom := trivial, stringLookup := trivial, related := by simp [facetsQuery], const := trivial, extra := by simp [facetsQuery, HasExtra] }

theorem entry_mem {o : Coll} {n : Nat} {e : Part} (h : entry o n = some e) : e ∈ o.parts ∧ e.name = n := by
  refine ⟨List.mem_of_find?_eq_some h, ?_⟩
  have := List.find?_some h
  simpa using this

/-- Starting from an empty collection, asking for the parts like an example over its time series gives exactly the
parts that agree with the example in every identifying attribute *the example has* (the example itself among
them).  Missing from the full claim: where the example has no realization or facet, parts of any realization or
facet are taken too, see below. -/
theorem C101_similar_over_time_partial (rel : Related) (o : Coll) (n : Nat) (e : Part) (ig : Bool) (hk : Keyed o.parts)
    (he : entry o n = some e) (hts : e.timeSeries ≠ none) (hs : e.support = none ∨ o.support = none ∨ e.support = o.support)
    (hr : e.realization = none ∨ o.realization = none ∨ e.realization = o.realization) :
    (inheritTimeSeries rel {} o n .unset ig).2 = none ∧
    e ∈ (inheritTimeSeries rel {} o n .unset ig).1.parts ∧
    ∀ p, p ∈ (inheritTimeSeries rel {} o n .unset ig).1.parts ↔ p ∈ o.parts ∧ Alike e p ∧
      Same e.realization p.realization ∧ Same e.facetType p.facetType ∧ Same e.facet p.facet ∧
      p.timeSeries = e.timeSeries := by
  classical
  have hacc : Acceptable rel o (timeSeriesQuery e .unset) := by
    refine ⟨?_, hs, Or.inr ⟨"is".toList, by decide, rfl⟩, by simp [timeSeriesQuery], Or.inl rfl, by simp [timeSeriesQuery]⟩
    rcases hr with h | h | h
    · left; simp [timeSeriesQuery, h, like]
    · right; left; exact h
    · cases hx : e.realization with
      | none => left; simp [timeSeriesQuery, hx, like]
      | some r => right; right; exact ⟨r, by simp [timeSeriesQuery, hx, like], by rw [← h, hx]⟩
  have hmain := (C101_inherit_selectively_partial rel {} o (timeSeriesQuery e .unset) ig hk hacc rfl (like_form _)
    (Or.inl rfl) (Or.inl rfl) (Or.inl rfl) (Or.inr (Or.inl rfl))).1 (Or.inr (by simp))
  have hunf : inheritTimeSeries rel {} o n .unset ig = inheritSelectively rel {} o (timeSeriesQuery e .unset) ig := by
    unfold inheritTimeSeries; rw [he]; simp [hts]
  have hiff : ∀ p, p ∈ (inheritTimeSeries rel {} o n .unset ig).1.parts ↔ p ∈ o.parts ∧ Alike e p ∧
      Same e.realization p.realization ∧ Same e.facetType p.facetType ∧ Same e.facet p.facet ∧
      p.timeSeries = e.timeSeries := by
    intro p
    rw [hunf, hmain.2]
    simp only [List.map_nil, List.nil_append, List.mem_filter, decide_eq_true_eq, List.not_mem_nil, not_false_eq_true,
      and_true, matches_timeSeries]
    obtain ⟨ts, hts'⟩ := Option.ne_none_iff_exists'.mp hts
    have : Same e.timeSeries p.timeSeries ↔ p.timeSeries = e.timeSeries := by simp [Same, hts']
    rw [this]
  refine ⟨by rw [hunf]; exact hmain.1, ?_, hiff⟩
  rw [hiff]
  exact ⟨(entry_mem he).1, ⟨fun v h => h, rfl, rfl, fun v h => h, fun k hk => ⟨k, hk, Or.inl rfl⟩, rfl⟩, fun v h => h,
    fun v h => h, fun v h => h, rfl⟩

/-- Likewise for realizations. -/
theorem C101_similar_over_realizations_partial (rel : Related) (o : Coll) (n : Nat) (e : Part) (ig : Bool)
    (hk : Keyed o.parts) (he : entry o n = some e) (hs : e.support = none ∨ o.support = none ∨ e.support = o.support)
    (ht : ∀ t, e.timeIndex = some t → 0 ≤ t) :
    (inheritRealizations rel {} o n .unset ig).2 = none ∧
    e ∈ (inheritRealizations rel {} o n .unset ig).1.parts ∧
    ∀ p, p ∈ (inheritRealizations rel {} o n .unset ig).1.parts ↔ p ∈ o.parts ∧ Alike e p ∧
      Same e.facetType p.facetType ∧ Same e.facet p.facet ∧ Same e.timeSeries p.timeSeries ∧
      Same e.timeIndex p.timeIndex := by
  classical
  have hacc : Acceptable rel o (realizationsQuery e .unset) := by
    refine ⟨Or.inl rfl, hs, Or.inr ⟨"is".toList, by decide, rfl⟩, ?_, Or.inl rfl, by simp [realizationsQuery]⟩
    intro n hn
    cases hx : e.timeIndex with
    | none => simp [realizationsQuery, hx, like] at hn
    | some t =>
      simp only [realizationsQuery, hx, like, Arg.is.injEq] at hn
      subst hn; exact ht _ hx
  have hmain := (C101_inherit_selectively_partial rel {} o (realizationsQuery e .unset) ig hk hacc rfl (like_form _)
    (like_form _) (Or.inl rfl) (Or.inl rfl) (Or.inr (Or.inl rfl))).1 (Or.inr (by simp))
  have hunf : inheritRealizations rel {} o n .unset ig = inheritSelectively rel {} o (realizationsQuery e .unset) ig := by
    unfold inheritRealizations; rw [he]
  have hiff : ∀ p, p ∈ (inheritRealizations rel {} o n .unset ig).1.parts ↔ p ∈ o.parts ∧ Alike e p ∧
      Same e.facetType p.facetType ∧ Same e.facet p.facet ∧ Same e.timeSeries p.timeSeries ∧
      Same e.timeIndex p.timeIndex := by
    intro p
    rw [hunf, hmain.2]
    simp only [List.map_nil, List.nil_append, List.mem_filter, decide_eq_true_eq, List.not_mem_nil, not_false_eq_true,
      and_true, matches_realizations]
  refine ⟨by rw [hunf]; exact hmain.1, ?_, hiff⟩
  rw [hiff]
  exact ⟨(entry_mem he).1, ⟨fun v h => h, rfl, rfl, fun v h => h, fun k hk => ⟨k, hk, Or.inl rfl⟩, rfl⟩, fun v h => h,
    fun v h => h, fun v h => h, fun v h => h⟩

/-- Likewise for facets. -/
theorem C101_similar_over_facets_partial (rel : Related) (o : Coll) (n : Nat) (e : Part) (ig : Bool)
    (hk : Keyed o.parts) (he : entry o n = some e) (hp : e.points = false)
    (hs : e.support = none ∨ o.support = none ∨ e.support = o.support)
    (hr : e.realization = none ∨ o.realization = none ∨ e.realization = o.realization)
    (ht : ∀ t, e.timeIndex = some t → 0 ≤ t) :
    (inheritFacets rel {} o n .unset ig).2 = none ∧
    e ∈ (inheritFacets rel {} o n .unset ig).1.parts ∧
    ∀ p, p ∈ (inheritFacets rel {} o n .unset ig).1.parts ↔ p ∈ o.parts ∧ Alike e p ∧
      Same e.realization p.realization ∧ Same e.timeSeries p.timeSeries ∧ Same e.timeIndex p.timeIndex := by
  classical
  have hacc : Acceptable rel o (facetsQuery e .unset) := by
    refine ⟨?_, hs, Or.inr ⟨"is".toList, by decide, rfl⟩, ?_, Or.inl rfl, by simp [facetsQuery]⟩
    · rcases hr with h | h | h
      · left; simp [facetsQuery, h, like]
      · right; left; exact h
      · cases hx : e.realization with
        | none => left; simp [facetsQuery, hx, like]
        | some r => right; right; exact ⟨r, by simp [facetsQuery, hx, like], by rw [← h, hx]⟩
    · intro n hn
      cases hx : e.timeIndex with
      | none => simp [facetsQuery, hx, like] at hn
      | some t =>
        simp only [facetsQuery, hx, like, Arg.is.injEq] at hn
        subst hn; exact ht _ hx
  have hmain := (C101_inherit_selectively_partial rel {} o (facetsQuery e .unset) ig hk hacc rfl (like_form _)
    (like_form _) (Or.inl rfl) (Or.inl rfl) (Or.inr (Or.inl rfl))).1 (Or.inr (by simp))
  have hunf : inheritFacets rel {} o n .unset ig = inheritSelectively rel {} o (facetsQuery e .unset) ig := by
    unfold inheritFacets; rw [he]; simp [hp]
  have hiff : ∀ p, p ∈ (inheritFacets rel {} o n .unset ig).1.parts ↔ p ∈ o.parts ∧ Alike e p ∧
      Same e.realization p.realization ∧ Same e.timeSeries p.timeSeries ∧ Same e.timeIndex p.timeIndex := by
    intro p
    rw [hunf, hmain.2]
    simp only [List.map_nil, List.nil_append, List.mem_filter, decide_eq_true_eq, List.not_mem_nil, not_false_eq_true,
      and_true, matches_facets rel e p hp]
  refine ⟨by rw [hunf]; exact hmain.1, ?_, hiff⟩
  rw [hiff]
  exact ⟨(entry_mem he).1, ⟨fun v h => h, rfl, rfl, fun v h => h, fun k hk => ⟨k, hk, Or.inl rfl⟩, rfl⟩, fun v h => h,
    fun v h => h, fun v h => h⟩

/-- For an example without a facet, "the same property at different times" includes a property with a facet, at
the same time: two different properties at one time. -/
theorem C101_similar_over_time_violated : ∃ (o : Coll) (e p : Part), Keyed o.parts ∧ entry o 1 = some e ∧
    (inheritTimeSeries none {} o 1 .unset false).2 = none ∧
    p ∈ (inheritTimeSeries none {} o 1 .unset false).1.parts ∧ e ∈ (inheritTimeSeries none {} o 1 .unset false).1.parts ∧
    e.timeIndex = p.timeIndex ∧ e.facet = none ∧ p.facet = some "gas".toList := by
  refine ⟨{ parts := [{ name := 1, kind := some "saturation".toList, title := ['S'], timeSeries := some 7, timeIndex := some 0 }, { name := 2, kind := some "saturation".toList, title := ['S'], facetType := some "what".toList, facet := some "gas".toList, timeSeries := some 7, timeIndex := some 0 }] },
    { name := 1, kind := some "saturation".toList, title := ['S'], timeSeries := some 7, timeIndex := some 0 },
    { name := 2, kind := some "saturation".toList, title := ['S'], facetType := some "what".toList, facet := some "gas".toList, timeSeries := some 7, timeIndex := some 0 }, by decide, by decide +kernel, by decide +kernel, by decide +kernel, by decide +kernel, rfl, rfl, rfl⟩

example : entry exColl 1 ≠ none ∧ (inheritTimeSeries none {} exColl 1 .unset false).1.parts.map (·.name) = [1] ∧
    (inheritRealizations none {} { exColl with parts := exColl.parts.map fun p => { p with timeIndex := none } } 1 .unset false).1.parts.map (·.name) = [1, 2] := by
  decide +kernel

example : (inheritAll { parts := [{ name := 3 }] } exColl true).1.parts.map (·.name) = [3, 1, 2] ∧
    (inheritAll { parts := [{ name := 3 }] } exColl false).2 = some .assertion ∧
    (inheritSelectively none { parts := [{ name := 2 }] } exColl { kind := .is "porosity".toList } true).1.parts.map (·.name) = [2, 1] := by
  decide +kernel

end Verif.PropColl
