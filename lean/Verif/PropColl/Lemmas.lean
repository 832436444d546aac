import Verif.PropColl.Spec
import Mathlib.Data.List.Nodup
import Mathlib.Data.List.Infix
import Mathlib.Data.List.Perm.Subperm
import Mathlib.Tactic.Push

/-! # Lemmas about selecting properties -/

namespace Verif.PropColl
open Verif.Py

theorem argFails_iff {α : Type} [DecidableEq α] (a : Arg α) (v : Option α) : argFails a v = false ↔ Passes a v := by
  cases a <;> cases v <;> simp [argFails, Passes]

theorem supportFails_iff (s : Option Nat) (v : Option Nat) :
    argFails (like s) v = false ↔ ∀ t, s = some t → v = some t := by
  cases s with
  | none => simp [argFails, like]
  | some s =>
    rw [argFails_iff]
    simp [Passes, like]

theorem sameKind_iff (a b : Str) : sameKind (some a) (some b) = true ↔ SameKind a b := by
  simp only [sameKind, SameKind, permeabilityKinds, List.mem_cons, List.not_mem_nil, or_false]
  constructor
  · intro h
    by_cases hab : a = b
    · exact Or.inl hab
    · rw [if_neg hab] at h
      split at h
      next hc =>
        obtain ⟨h1 | h1, h2 | h2⟩ := hc
        · exact absurd (h1.trans h2.symm) hab
        · exact Or.inr (Or.inl ⟨h1, h2⟩)
        · exact Or.inr (Or.inr ⟨h1, h2⟩)
        · exact absurd (h1.trans h2.symm) hab
      next => simp at h
  · rintro (h | ⟨h1, h2⟩ | ⟨h1, h2⟩)
    · rw [if_pos h]
    · by_cases hab : a = b
      · rw [if_pos hab]
      · rw [if_neg hab, if_pos ⟨Or.inl h1, Or.inr h2⟩]
    · by_cases hab : a = b
      · rw [if_pos hab]
      · rw [if_neg hab, if_pos ⟨Or.inr h1, Or.inl h2⟩]

theorem kindFails_iff (a : Arg Str) (k : Option Str) (ha : a = .unset ∨ ∃ s, a = .is s) :
    kindFails a k = false ↔ PassesKind a k := by
  rcases ha with rfl | ⟨s, rfl⟩
  · simp [kindFails, argText, PassesKind]
  · cases k with
    | none => simp [kindFails, argText, PassesKind, sameKind]
    | some k =>
      simp only [kindFails, argText, Option.isSome_some, Bool.true_and, Bool.not_eq_false', PassesKind]
      rw [sameKind_iff]
      constructor
      · intro h; exact ⟨k, rfl, h⟩
      · rintro ⟨k', hk, h⟩; cases hk; exact h

theorem contains_iff (t : Str) : ∀ s : Str, contains t s = true ↔ t <:+: s
  | [] => by
    simp only [contains, List.isPrefixOf_iff_prefix]
    constructor
    · intro h; exact h.isInfix
    · intro h
      have : t = [] := List.infix_nil.mp h
      subst this; exact List.nil_prefix
  | c :: s => by
    simp only [contains, Bool.or_eq_true, List.isPrefixOf_iff_prefix, contains_iff t s]
    rw [List.infix_cons_iff]

theorem titleMode_ok (t m title : Str) (hm : m ∈ modes) :
    ∃ b, titleModeFails t m title = .ok b ∧ (b = false ↔ PassesTitle t m title) := by
  have key : ∀ b : Bool, ∀ P : Prop, (b = true ↔ P) → ((!b) = false ↔ P) ∧ (b = false ↔ ¬ P) := by
    intro b P h
    cases b <;> simp_all
  simp only [modes, List.mem_cons, List.not_mem_nil, or_false] at hm
  rcases hm with rfl | rfl | rfl | rfl | rfl | rfl | rfl | rfl
  · exact ⟨_, rfl, by simp [PassesTitle]⟩
  · exact ⟨_, rfl, by simp [PassesTitle, List.isPrefixOf_iff_prefix]⟩
  · exact ⟨_, rfl, by simp [PassesTitle, List.isSuffixOf_iff_suffix]⟩
  · exact ⟨_, rfl, by simp [PassesTitle, contains_iff]⟩
  · exact ⟨_, rfl, by simp [PassesTitle]⟩
  · refine ⟨_, rfl, ?_⟩
    rw [(key _ _ List.isPrefixOf_iff_prefix).2]; simp [PassesTitle]
  · refine ⟨_, rfl, ?_⟩
    rw [(key _ _ List.isSuffixOf_iff_suffix).2]; simp [PassesTitle]
  · refine ⟨_, rfl, ?_⟩
    rw [(key _ _ (contains_iff _ _)).2]; simp [PassesTitle]

theorem means_iff (m : Mode) (s : Str) : Means m s ↔ s = modeText m := by
  cases m with
  | unset => rfl
  | flag b => cases b <;> rfl
  | text t => rfl

theorem title_ok (q : Query) (p : Part) (hm : q.title = none ∨ ∃ m ∈ modes, Means q.mode m) :
    ∃ b, titleFails q.title q.mode p.title = .ok b ∧
      (b = false ↔ ∀ t, q.title = some t → ∃ m, Means q.mode m ∧ PassesTitle t m p.title) := by
  cases ht : q.title with
  | none => exact ⟨false, rfl, by simp⟩
  | some t =>
    rcases hm with h | ⟨m, hmm, hme⟩
    · rw [ht] at h; cases h
    · rw [means_iff] at hme
      obtain ⟨b, hb, hiff⟩ := titleMode_ok t m p.title hmm
      refine ⟨b, by rw [hme] at hb; exact hb, hiff.trans ?_⟩
      constructor
      · intro h t' ht'
        cases ht'
        exact ⟨m, (means_iff _ _).mpr hme, h⟩
      · intro h
        obtain ⟨m', hm', hp⟩ := h t rfl
        rw [means_iff] at hm'
        rw [hme, ← hm']; exact hp

theorem categorical_iff (c : Option Bool) (p : Part) :
    categoricalFails c p = false ↔ ∀ b, c = some b → (b = true ↔ Categorical p) := by
  unfold Categorical
  rcases c with _ | _ | _
  · simp [categoricalFails]
  · simp only [categoricalFails]
    cases p.continuous <;> cases p.stringLookup <;> simp
  · simp only [categoricalFails]
    cases p.continuous <;> cases p.stringLookup <;> simp

theorem get_mem {em : List (Str × Str)} {k v : Str} (h : get em k = some v) : k ∈ em.map (·.1) := by
  unfold get at h
  rw [Option.map_eq_some_iff] at h
  obtain ⟨e, he, -⟩ := h
  have h1 := List.find?_some he
  have h2 := List.mem_of_find?_eq_some he
  simp only [decide_eq_true_eq] at h1
  exact List.mem_map.mpr ⟨e, h2, h1⟩

theorem extra_iff (extra : List (Str × Str)) (p : Part) (hn : (extra.map (·.1)).Nodup) :
    extraFails extra p.extra = false ↔ HasExtra extra p := by
  unfold extraFails HasExtra
  by_cases h0 : extra = []
  · subst h0; simp
  · rw [if_neg (by simpa using h0)]
    cases hem : p.extra with
    | none => simp [h0]
    | some em =>
      have hget : ∀ k, get em k = (em.find? (fun e => e.1 = k)).map (·.2) := fun k => rfl
      constructor
      · intro h _
        refine ⟨em, rfl, ?_⟩
        intro k v hkv
        by_cases hl : em.length < extra.length
        · simp [hl] at h
        · simp only [hl, if_false, List.any_eq_false, Bool.not_eq_true', decide_eq_false_iff_not, not_not] at h
          exact h (k, v) hkv
      · intro h
        obtain ⟨em', he, hall⟩ := h h0
        cases he
        have hl : ¬ em.length < extra.length := by
          have hsub : extra.map (·.1) ⊆ em.map (·.1) := by
            intro k hk
            obtain ⟨e, he, rfl⟩ := List.mem_map.mp hk
            exact get_mem (hall e.1 e.2 he)
          have := (List.subperm_of_subset hn hsub).length_le
          simp only [List.length_map] at this
          omega
        simp only [hl, if_false, List.any_eq_false, Bool.not_eq_true', decide_eq_false_iff_not, not_not]
        intro e he
        exact hall e.1 e.2 he

theorem related_ok (rel : Related) (q : Query) (p : Part) (h : q.related = none ∨ rel ≠ none) :
    ∃ b, relatedFails rel q.related p = .ok b ∧
      (b = false ↔ ∀ u, q.related = some u → ∃ r, rel = some r ∧ r u p.uuid = true) := by
  cases hq : q.related with
  | none => exact ⟨false, rfl, by simp⟩
  | some u =>
    cases hr : rel with
    | none => rcases h with h | h
              · rw [hq] at h; cases h
              · exact absurd hr h
    | some r => exact ⟨!(r u p.uuid), rfl, by simp⟩

/-- the filters are exactly those of the specification, but for the unit of measure and the special texts for
the property kind -/
theorem skipped_ok (rel : Related) (q : Query) (p : Part)
    (hm : q.title = none ∨ ∃ m ∈ modes, Means q.mode m) (hr : q.related = none ∨ rel ≠ none)
    (he : (q.extra.map (·.1)).Nodup) (hk : q.kind = .unset ∨ ∃ s, q.kind = .is s) (hu : q.uom = .unset) :
    ∃ b, skipped rel q p = .ok b ∧ (b = false ↔ Matches rel q p) := by
  obtain ⟨bt, hbt, hti⟩ := title_ok q p hm
  obtain ⟨br, hbr, hri⟩ := related_ok rel q p hr
  have hA : failsBeforeTitle q p = false ↔
      Passes q.realization p.realization ∧ (∀ s, q.support = some s → p.support = some s) ∧
      Passes q.uuid (some p.uuid) ∧ Passes q.continuous (some p.continuous) ∧
      (∀ b, q.categorical = some b → (b = true ↔ Categorical p)) ∧ Passes q.count (some p.count) ∧
      Passes q.points (some p.points) ∧ Passes q.indexable p.indexable ∧ PassesKind q.kind p.kind ∧
      Passes q.facetType p.facetType ∧ Passes q.facet p.facet := by
    unfold failsBeforeTitle
    simp only [Bool.or_eq_false_iff, supportFails_iff, and_assoc]
    simp only [argFails_iff, categorical_iff, kindFails_iff _ _ hk]
  have hB : failsAfterTitle q p = false ↔
      Passes q.timeSeries p.timeSeries ∧ Passes q.timeIndex p.timeIndex ∧ Passes q.stringLookup p.stringLookup ∧
      Passes q.const p.constValue := by
    unfold failsAfterTitle
    simp only [Bool.or_eq_false_iff, argFails_iff, and_assoc]
  have hX := extra_iff q.extra p he
  unfold skipped
  cases hfa : failsBeforeTitle q p with
  | true =>
    refine ⟨true, by simp, ?_⟩
    refine ⟨by simp, fun h => ?_⟩
    have := hA.mpr ⟨h.realization, h.support, h.uuid, h.continuous, h.categorical, h.count, h.points, h.indexable,
      h.kind, h.facetType, h.facet⟩
    rw [hfa] at this; cases this
  | false =>
    obtain ⟨a1, a2, a3, a4, a5, a6, a7, a8, a9, a10, a11⟩ := hA.mp hfa
    rw [hbt]
    cases bt with
    | true =>
      refine ⟨true, by simp, ⟨by simp, fun h => ?_⟩⟩
      have := hti.mpr h.title; cases this
    | false =>
      have ht := hti.mp rfl
      cases hfb : failsAfterTitle q p with
      | true =>
        refine ⟨true, by simp, ⟨by simp, fun h => ?_⟩⟩
        have := hB.mpr ⟨h.timeSeries, h.timeIndex, h.stringLookup, h.const⟩
        rw [hfb] at this; cases this
      | false =>
        obtain ⟨b1, b2, b3, b4⟩ := hB.mp hfb
        rw [hbr]
        cases br with
        | true =>
          refine ⟨true, by simp, ⟨by simp, fun h => ?_⟩⟩
          have := hri.mpr h.related; cases this
        | false =>
          have hrel := hri.mp rfl
          refine ⟨extraFails q.extra p.extra, by simp, ?_⟩
          rw [hX]
          constructor
          · intro h
            exact ⟨a1, a2, a3, a4, a5, a6, a7, a8, a9, a10, a11, ht, b1, b2, by rw [hu]; trivial, b3, hrel, b4, h⟩
          · intro h; exact h.extra

theorem hasName_iff (l : List Part) (n : Nat) : hasName l n = true ↔ n ∈ l.map (·.name) := by
  simp only [hasName, List.any_eq_true, decide_eq_true_eq, List.mem_map]

theorem addSelected_prefix (rel : Related) (q : Query) (ig : Bool) :
    ∀ (l d : List Part), d <+: (addSelected rel q ig d l).1
  | [], d => List.prefix_rfl
  | p :: t, d => by
    unfold addSelected
    split
    · exact List.prefix_rfl
    · exact addSelected_prefix rel q ig t d
    · split
      · split
        · exact addSelected_prefix rel q ig t d
        · exact List.prefix_rfl
      · exact (List.prefix_append d [p]).trans (addSelected_prefix rel q ig t (d ++ [p]))

open scoped Classical in
/-- the loop: what is added is exactly what matches and is not there yet -/
theorem addSelected_ok (rel : Related) (q : Query) (ig : Bool)
    (hsk : ∀ p, ∃ b, skipped rel q p = .ok b ∧ (b = false ↔ Matches rel q p)) :
    ∀ (l d : List Part), Keyed l →
      (ig = true ∨ ∀ p ∈ l, Matches rel q p → p.name ∉ d.map (·.name)) →
      addSelected rel q ig d l =
        (d ++ l.filter (fun p => decide (Matches rel q p ∧ p.name ∉ d.map (·.name))), none)
  | [], d, _, _ => by simp [addSelected]
  | p :: t, d, hk, hc => by
    have hkt : Keyed t := (List.nodup_cons.mp hk).2
    have hpt : p.name ∉ t.map (·.name) := (List.nodup_cons.mp hk).1
    have hct : ig = true ∨ ∀ x ∈ t, Matches rel q x → x.name ∉ d.map (·.name) := by
      rcases hc with h | h
      · exact Or.inl h
      · exact Or.inr fun x hx => h x (List.mem_cons_of_mem _ hx)
    obtain ⟨b, hb, hiff⟩ := hsk p
    unfold addSelected
    rw [hb]
    cases b with
    | true =>
      have hnm : ¬ Matches rel q p := fun h => by have := hiff.mpr h; cases this
      simp only
      rw [addSelected_ok rel q ig hsk t d hkt hct, List.filter_cons_of_neg (by simp [hnm])]
    | false =>
      have hm : Matches rel q p := hiff.mp rfl
      simp only
      by_cases hin : p.name ∈ d.map (·.name)
      · rw [if_pos ((hasName_iff d p.name).mpr hin)]
        rcases hc with h | h
        · rw [if_pos h, addSelected_ok rel q ig hsk t d hkt hct, List.filter_cons_of_neg (by simp only [decide_eq_true_eq]; tauto)]
        · exact absurd hin (h p List.mem_cons_self hm)
      · rw [if_neg (fun h => hin ((hasName_iff d p.name).mp h))]
        have hct' : ig = true ∨ ∀ x ∈ t, Matches rel q x → x.name ∉ (d ++ [p]).map (·.name) := by
          rcases hct with h | h
          · exact Or.inl h
          · refine Or.inr fun x hx hmx hxd => ?_
            rw [List.map_append, List.mem_append] at hxd
            rcases hxd with hxd | hxd
            · exact h x hx hmx hxd
            · simp only [List.map_cons, List.map_nil, List.mem_cons, List.not_mem_nil, or_false] at hxd
              exact hpt (hxd ▸ List.mem_map.mpr ⟨x, hx, rfl⟩)
        rw [addSelected_ok rel q ig hsk t (d ++ [p]) hkt hct', List.filter_cons_of_pos (by simp only [decide_eq_true_eq]; exact ⟨hm, hin⟩)]
        have : t.filter (fun x => decide (Matches rel q x ∧ x.name ∉ (d ++ [p]).map (·.name))) =
            t.filter (fun x => decide (Matches rel q x ∧ x.name ∉ d.map (·.name))) := by
          apply List.filter_congr
          intro x hx
          have hne : x.name ≠ p.name := fun h => hpt (h ▸ List.mem_map.mpr ⟨x, hx, rfl⟩)
          simp [List.map_append, hne]
        rw [this]
        simp

/-- a clash raises an assertion error -/
theorem addSelected_clash (rel : Related) (q : Query)
    (hsk : ∀ p, ∃ b, skipped rel q p = .ok b ∧ (b = false ↔ Matches rel q p)) :
    ∀ (l d : List Part), (∃ p ∈ l, Matches rel q p ∧ p.name ∈ d.map (·.name)) →
      (addSelected rel q false d l).2 = some .assertion
  | [], d, h => by obtain ⟨p, hp, -⟩ := h; cases hp
  | p :: t, d, h => by
    obtain ⟨b, hb, hiff⟩ := hsk p
    unfold addSelected
    rw [hb]
    cases b with
    | true =>
      have hnm : ¬ Matches rel q p := fun hh => by have := hiff.mpr hh; cases this
      simp only
      apply addSelected_clash rel q hsk t d
      obtain ⟨x, hx, hmx, hxd⟩ := h
      rcases List.mem_cons.mp hx with rfl | hx
      · exact absurd hmx hnm
      · exact ⟨x, hx, hmx, hxd⟩
    | false =>
      have hm : Matches rel q p := hiff.mp rfl
      simp only
      by_cases hin : p.name ∈ d.map (·.name)
      · rw [if_pos ((hasName_iff d p.name).mpr hin)]; simp
      · rw [if_neg (fun hh => hin ((hasName_iff d p.name).mp hh))]
        apply addSelected_clash rel q hsk t (d ++ [p])
        obtain ⟨x, hx, hmx, hxd⟩ := h
        rcases List.mem_cons.mp hx with rfl | hx
        · exact absurd hxd hin
        · exact ⟨x, hx, hmx, by rw [List.map_append, List.mem_append]; exact Or.inl hxd⟩

theorem addAll_eq (ig : Bool) : ∀ (l d : List Part), Keyed l →
      (ig = true ∨ ∀ p ∈ l, p.name ∉ d.map (·.name)) →
      addAll ig d l = (d ++ l.filter (fun p => decide (p.name ∉ d.map (·.name))), none)
  | [], d, _, _ => by simp [addAll]
  | p :: t, d, hk, hc => by
    have hkt : Keyed t := (List.nodup_cons.mp hk).2
    have hpt : p.name ∉ t.map (·.name) := (List.nodup_cons.mp hk).1
    have hct : ig = true ∨ ∀ x ∈ t, x.name ∉ d.map (·.name) := by
      rcases hc with h | h
      · exact Or.inl h
      · exact Or.inr fun x hx => h x (List.mem_cons_of_mem _ hx)
    unfold addAll
    by_cases hin : p.name ∈ d.map (·.name)
    · rw [if_pos ((hasName_iff d p.name).mpr hin)]
      rcases hc with h | h
      · rw [if_pos h, addAll_eq ig t d hkt hct, List.filter_cons_of_neg (by simp only [decide_eq_true_eq]; tauto)]
      · exact absurd hin (h p List.mem_cons_self)
    · rw [if_neg (fun h => hin ((hasName_iff d p.name).mp h))]
      have hct' : ig = true ∨ ∀ x ∈ t, x.name ∉ (d ++ [p]).map (·.name) := by
        rcases hct with h | h
        · exact Or.inl h
        · refine Or.inr fun x hx hxd => ?_
          rw [List.map_append, List.mem_append] at hxd
          rcases hxd with hxd | hxd
          · exact h x hx hxd
          · simp only [List.map_cons, List.map_nil, List.mem_cons, List.not_mem_nil, or_false] at hxd
            exact hpt (hxd ▸ List.mem_map.mpr ⟨x, hx, rfl⟩)
      rw [addAll_eq ig t (d ++ [p]) hkt hct', List.filter_cons_of_pos (by simp only [decide_eq_true_eq]; exact hin)]
      have : t.filter (fun x => decide (x.name ∉ (d ++ [p]).map (·.name))) =
          t.filter (fun x => decide (x.name ∉ d.map (·.name))) := by
        apply List.filter_congr
        intro x hx
        have hne : x.name ≠ p.name := fun h => hpt (h ▸ List.mem_map.mpr ⟨x, hx, rfl⟩)
        simp [List.map_append, hne]
      rw [this]
      simp

end Verif.PropColl
