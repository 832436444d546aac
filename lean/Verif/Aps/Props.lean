import Verif.Aps.Model
import Mathlib.Data.List.Nodup
import Mathlib.Tactic.IntervalCases

/-! # C201, C202: property sets with attribute syntax -/

namespace Verif.Aps
open Verif.Py

/-- Adding parts: attributes already set stay, others hold the first part with the key. -/
theorem make_ok (mode : KeyMode) (ix : Option Text) (h : Handling) (ps : List Part) : ∀ (attrs a : Text → Value), makeAttributes mode ix h attrs ps = .ok a →
    ∀ k, a k = if attrs k ≠ .none then attrs k else match ps.find? (fun p => makeKey mode ix p = k) with | some p => .property p | none => .none := by
  induction ps with
  | nil =>
    intro attrs a h k
    cases h
    split
    · rfl
    · rename_i hk; simpa using hk
  | cons p ps ih =>
    intro attrs a hm k
    simp only [makeAttributes, attributeStep] at hm
    by_cases hp : attrs (makeKey mode ix p) ≠ .none
    · rw [if_pos hp] at hm
      have hm' : makeAttributes mode ix h attrs ps = .ok a := by
        cases h with
        | warn => exact hm
        | ignore => exact hm
        | exception => cases hm
      rw [ih attrs a hm' k]
      by_cases hk : attrs k ≠ .none
      · rw [if_pos hk, if_pos hk]
      · rw [if_neg hk, if_neg hk, List.find?_cons_of_neg]
        simp only [decide_eq_true_eq]
        rintro rfl
        exact hk hp
    · rw [if_neg hp] at hm
      rw [ih _ a hm k]
      by_cases hk : k = makeKey mode ix p
      · subst hk
        simp [not_not.1 hp]
      · simp only [if_neg hk]
        by_cases hk' : attrs k ≠ .none
        · rw [if_pos hk', if_pos hk']
        · rw [if_neg hk', if_neg hk', List.find?_cons_of_neg]
          simpa using fun e => hk e.symm

theorem make_exists (mode : KeyMode) (ix : Option Text) (h : Handling) (hh : h ≠ .exception) (ps : List Part) :
    ∀ (attrs : Text → Value), ∃ a, makeAttributes mode ix h attrs ps = .ok a := by
  induction ps with
  | nil => intro attrs; exact ⟨_, rfl⟩
  | cons p ps ih =>
    intro attrs
    simp only [makeAttributes, attributeStep]
    by_cases hp : attrs (makeKey mode ix p) ≠ .none
    · rw [if_pos hp]
      cases h with
      | warn => exact ih _
      | ignore => exact ih _
      | exception => exact absurd rfl hh
    · rw [if_neg hp]; exact ih _

theorem make_exception (mode : KeyMode) (ix : Option Text) (ps : List Part) : ∀ (attrs : Text → Value),
    ((∃ a, makeAttributes mode ix .exception attrs ps = .ok a) ↔ (keys mode ix ps).Nodup ∧ ∀ k ∈ keys mode ix ps, attrs k = .none) ∧
    ∀ e, makeAttributes mode ix .exception attrs ps = .error e → e = .key := by
  induction ps with
  | nil => intro attrs; exact ⟨⟨fun _ => by simp [keys], fun _ => ⟨_, rfl⟩⟩, fun e h => by cases h⟩
  | cons p ps ih =>
    intro attrs
    simp only [makeAttributes, attributeStep]
    by_cases hp : attrs (makeKey mode ix p) ≠ .none
    · rw [if_pos hp]
      refine ⟨⟨?_, fun hh => absurd (hh.2 _ (by simp [keys])) hp⟩, fun e h => ?_⟩
      · rintro ⟨a, h⟩; cases h
      · cases h; rfl
    · rw [if_neg hp]
      refine ⟨?_, (ih _).2⟩
      show (∃ a, makeAttributes mode ix .exception _ ps = .ok a) ↔ _
      rw [(ih _).1]
      have e : keys mode ix (p :: ps) = makeKey mode ix p :: keys mode ix ps := rfl
      rw [e, List.nodup_cons]
      constructor
      · rintro ⟨h1, h2⟩
        have hn : makeKey mode ix p ∉ keys mode ix ps := by
          intro hm
          have := h2 _ hm
          simp at this
        refine ⟨⟨hn, h1⟩, fun k hk => ?_⟩
        rcases List.mem_cons.1 hk with rfl | hk
        · exact not_not.1 hp
        · have := h2 k hk
          split at this
          · cases this
          · exact this
      · rintro ⟨⟨h1, h2⟩, h3⟩
        refine ⟨h2, fun k hk => ?_⟩
        rw [if_neg (fun e : k = makeKey mode ix p => h1 (e ▸ hk))]
        exact h3 k (by simp [hk])

/-- C201: where no key is the name of an attribute of the collection, each key gives as attribute the first property with it, and attributes of other
names are left alone. -/
theorem C201_first (mode : KeyMode) (ix : Option Text) (h : Handling) (hh : h ≠ .exception) (attrs : Text → Value) (ps : List Part)
    (hfree : ∀ p ∈ ps, attrs (makeKey mode ix p) = .none) :
    ∃ a, makeAttributes mode ix h attrs ps = .ok a ∧
      (∀ pre p post, ps = pre ++ p :: post → (∀ q ∈ pre, makeKey mode ix q ≠ makeKey mode ix p) → a (makeKey mode ix p) = .property p) ∧
      ∀ k, (∀ p ∈ ps, makeKey mode ix p ≠ k) → a k = attrs k := by
  obtain ⟨a, ha⟩ := make_exists mode ix h hh ps attrs
  have hk := make_ok mode ix h ps attrs a ha
  refine ⟨a, ha, ?_, ?_⟩
  · rintro pre p post rfl hpre
    rw [hk, hfree p (by simp)]
    have : (pre ++ p :: post).find? (fun q => makeKey mode ix q = makeKey mode ix p) = some p := by
      rw [List.find?_append, List.find?_eq_none.2 (by simpa using hpre)]
      simp
    simp [this]
  · intro k hn
    rw [hk]
    have : ps.find? (fun q => makeKey mode ix q = k) = none := List.find?_eq_none.2 (by simpa using hn)
    rw [this]
    by_cases h0 : attrs k = .none <;> simp [h0]

/-- C201: with distinct keys, none the name of an attribute of the collection, every way of handling duplicates is the same: items are the properties in order,
each with its key, as many as the size. -/
theorem C201_items_partial (mode : KeyMode) (ix : Option Text) (h : Handling) (attrs : Text → Value) (ps : List Part)
    (hfree : ∀ p ∈ ps, attrs (makeKey mode ix p) = .none) (hd : ps.Pairwise fun p q => makeKey mode ix p ≠ makeKey mode ix q) :
    ∃ a, makeAttributes mode ix h attrs ps = .ok a ∧ items mode ix a ps = ps.map (fun p => (makeKey mode ix p, .property p)) ∧
      (items mode ix a ps).length = size ps := by
  have hn : (keys mode ix ps).Nodup := List.pairwise_map.2 hd
  obtain ⟨a, ha⟩ : ∃ a, makeAttributes mode ix h attrs ps = .ok a := by
    cases h with
    | warn => exact make_exists mode ix .warn (by simp) ps attrs
    | ignore => exact make_exists mode ix .ignore (by simp) ps attrs
    | exception =>
      refine ((make_exception mode ix ps attrs).1).2 ⟨hn, ?_⟩
      intro k hk
      obtain ⟨p, hp, rfl⟩ := List.mem_map.1 hk
      exact hfree p hp
  refine ⟨a, ha, ?_, by simp [items, keys, size]⟩
  simp only [items, keys, List.map_map]
  refine List.map_congr_left fun p hp => ?_
  have hk := make_ok mode ix h ps attrs a ha (makeKey mode ix p)
  obtain ⟨pre, post, rfl⟩ := List.append_of_mem hp
  rw [hfree p hp] at hk
  have hpre : ∀ q ∈ pre, makeKey mode ix q ≠ makeKey mode ix p := fun q hq => (List.pairwise_append.1 hd).2.2 q hq p (by simp)
  have : (pre ++ p :: post).find? (fun q => makeKey mode ix q = makeKey mode ix p) = some p := by
    rw [List.find?_append, List.find?_eq_none.2 (by simpa using hpre)]
    simp
  simp only [this, ne_eq, not_true, if_false] at hk
  simp [hk]

/-- C201: with exceptions asked for, and no key the name of an attribute of the collection, a KeyError is raised just when two properties have the same key. -/
theorem C201_exception (mode : KeyMode) (ix : Option Text) (attrs : Text → Value) (ps : List Part) (hfree : ∀ p ∈ ps, attrs (makeKey mode ix p) = .none) :
    makeAttributes mode ix .exception attrs ps = .error .key ↔ ∃ pre p mid q post, ps = pre ++ p :: mid ++ q :: post ∧ makeKey mode ix p = makeKey mode ix q := by
  have h := make_exception mode ix ps attrs
  have hf : ∀ k ∈ keys mode ix ps, attrs k = .none := by
    intro k hk
    obtain ⟨p, hp, rfl⟩ := List.mem_map.1 hk
    exact hfree p hp
  have h1 : makeAttributes mode ix .exception attrs ps = .error .key ↔ ¬ (keys mode ix ps).Nodup := by
    constructor
    · intro he hn
      obtain ⟨a, ha⟩ := h.1.2 ⟨hn, hf⟩
      rw [he] at ha; cases ha
    · intro hn
      cases hm : makeAttributes mode ix .exception attrs ps with
      | ok a => exact absurd (h.1.1 ⟨a, hm⟩).1 hn
      | error e => rw [h.2 e hm]
  rw [h1]
  clear h1 hf h hfree
  induction ps with
  | nil => simp [keys]
  | cons p ps ih =>
    have e : keys mode ix (p :: ps) = makeKey mode ix p :: keys mode ix ps := rfl
    rw [e, List.nodup_cons]
    constructor
    · intro hn
      by_cases hm : makeKey mode ix p ∈ keys mode ix ps
      · obtain ⟨q, hq, e'⟩ := List.mem_map.1 hm
        obtain ⟨mid, post, rfl⟩ := List.append_of_mem hq
        exact ⟨[], p, mid, q, post, rfl, e'.symm⟩
      · obtain ⟨pre, x, mid, q, post, rfl, e'⟩ := ih.1 fun hc => hn ⟨hm, hc⟩
        exact ⟨p :: pre, x, mid, q, post, rfl, e'⟩
    · rintro ⟨pre, x, mid, q, post, e, hk⟩ ⟨h1, h2⟩
      cases pre with
      | nil =>
        simp only [List.nil_append, List.cons_append, List.cons.injEq] at e
        obtain ⟨rfl, rfl⟩ := e
        exact h1 (by rw [hk]; simp [keys])
      | cons y pre =>
        simp only [List.cons_append, List.cons.injEq] at e
        exact ih.2 ⟨pre, x, mid, q, post, e.2, hk⟩ h2

/-- C201 fails for duplicates: the items still are as many as all properties, and in the place of a hidden property the first one with its key comes again. -/
theorem C201_repeated_violated (mode : KeyMode) (ix : Option Text) (h : Handling) (hh : h ≠ .exception) (attrs : Text → Value) (pre mid post : List Part) (p q : Part)
    (hfree : attrs (makeKey mode ix p) = .none) (hpre : ∀ x ∈ pre, makeKey mode ix x ≠ makeKey mode ix p) (hpq : makeKey mode ix q = makeKey mode ix p) :
    ∃ a, makeAttributes mode ix h attrs (pre ++ p :: mid ++ q :: post) = .ok a ∧
      (items mode ix a (pre ++ p :: mid ++ q :: post)).length = size (pre ++ p :: mid ++ q :: post) ∧
      2 ≤ (items mode ix a (pre ++ p :: mid ++ q :: post)).countP (fun x => x.2 = .property p) := by
  obtain ⟨a, ha⟩ := make_exists mode ix h hh (pre ++ p :: mid ++ q :: post) attrs
  have hk := make_ok mode ix h _ attrs a ha (makeKey mode ix p)
  have : (pre ++ p :: mid ++ q :: post).find? (fun q => makeKey mode ix q = makeKey mode ix p) = some p := by
    rw [List.append_assoc, List.find?_append, List.find?_eq_none.2 (by simpa using hpre)]
    simp
  simp only [this, hfree, ne_eq, not_true, if_false] at hk
  refine ⟨a, ha, by simp [items, keys, size], ?_⟩
  simp only [items, keys, List.map_append, List.map_cons, List.countP_append, List.countP_cons, hpq, hk, decide_true, if_true]
  omega

/-- C201 fails for a key which is the name of an attribute of the collection (a method, for example): no item is the property, and where exceptions are
asked for the set cannot be made, although no key is duplicated. -/
theorem C201_reserved_violated (mode : KeyMode) (ix : Option Text) (h : Handling) (attrs : Text → Value) (p : Part) (hown : attrs (makeKey mode ix p) = .own)
    (ps : List Part) (hp : p ∈ ps) :
    (h ≠ .exception → ∃ a, makeAttributes mode ix h attrs ps = .ok a ∧ a (makeKey mode ix p) = .own ∧ (makeKey mode ix p, Value.own) ∈ items mode ix a ps ∧
      ∀ x ∈ items mode ix a ps, x.1 = makeKey mode ix p → x.2 ≠ .property p) ∧
    makeAttributes mode ix .exception attrs ps = .error .key := by
  constructor
  · intro hh
    obtain ⟨a, ha⟩ := make_exists mode ix h hh ps attrs
    have hk := make_ok mode ix h _ attrs a ha (makeKey mode ix p)
    rw [hown] at hk
    have hk : a (makeKey mode ix p) = .own := by simpa using hk
    refine ⟨a, ha, hk, ?_, ?_⟩
    · simp only [items, keys, List.map_map, List.mem_map, Function.comp]
      exact ⟨p, hp, by rw [hk]⟩
    · intro x hx e
      simp only [items, keys, List.map_map, List.mem_map, Function.comp] at hx
      obtain ⟨q, _, rfl⟩ := hx
      simp only at e ⊢
      rw [e, hk]; simp
  · have h := make_exception mode ix ps attrs
    cases hm : makeAttributes mode ix .exception attrs ps with
    | error e => rw [h.2 e hm]
    | ok a =>
      have := (h.1.1 ⟨a, hm⟩).2 (makeKey mode ix p) (List.mem_map.2 ⟨p, hp, rfl⟩)
      rw [hown] at this; cases this

theorem showInt_no_us (z : Int) : '_' ∉ showInt z := by
  have hn : ∀ n, '_' ∉ showNat n := by
    intro n h
    obtain ⟨d, hd, e⟩ := showNat_digits n _ h
    revert e
    interval_cases d <;> decide
  cases z with
  | ofNat n => exact hn n
  | negSucc n =>
    intro h
    simp only [showInt] at h
    rcases List.mem_cons.1 h with h | h
    · cases h
    · exact hn _ h

theorem showInt_inj (a b : Int) (h : showInt a = showInt b) : a = b := by
  have h1 := readInt?_showInt a
  rw [h, readInt?_showInt b] at h1
  exact (Option.some.inj h1).symm

/-- C202: keys of properties of the same kind, title, facet and indexable elements are the same just when time index and realization are. -/
theorem C202_time_realization (mode : KeyMode) (ix : Option Text) (p q : Part) (hk : p.kind = q.kind) (ht : p.title = q.title) (hf : p.facet = q.facet)
    (hi : p.indexable = q.indexable) :
    makeKey mode ix p = makeKey mode ix q ↔ p.timeIndex = q.timeIndex ∧ p.realization = q.realization := by
  constructor
  swap
  · rintro ⟨h1, h2⟩
    simp only [makeKey, hk, ht, hf, hi, h1, h2]
  · intro h
    simp only [makeKey, hk, ht, hf, hi, List.append_assoc] at h
    have h := List.append_cancel_left h
    have st : ∀ c t, suffix c (some t) = '_' :: c :: showInt t := fun _ _ => rfl
    have sn : ∀ c, suffix c none = [] := fun _ => rfl
    have cut : ∀ (a b r s : Text), '_' ∉ a → '_' ∉ b → (r = [] ∨ ∃ r', r = '_' :: r') → (s = [] ∨ ∃ s', s = '_' :: s') → a ++ r = b ++ s → a = b ∧ r = s := by
      intro a
      induction a with
      | nil =>
        intro b r s _ hb hr _ e
        cases b with
        | nil => exact ⟨rfl, e⟩
        | cons c b =>
          rcases hr with rfl | ⟨r', rfl⟩
          · cases e
          · simp only [List.nil_append, List.cons_append, List.cons.injEq] at e
            exact absurd (by rw [← e.1]; simp) hb
      | cons c a ih =>
        intro b r s ha hb hr hs e
        cases b with
        | nil =>
          rcases hs with rfl | ⟨s', rfl⟩
          · cases e
          · simp only [List.nil_append, List.cons_append, List.cons.injEq] at e
            exact absurd (by rw [e.1]; simp) ha
        | cons d b =>
          simp only [List.cons_append, List.cons.injEq] at e
          obtain ⟨rfl, e⟩ := e
          obtain ⟨rfl, rfl⟩ := ih b r s (fun h => ha (by simp [h])) (fun h => hb (by simp [h])) hr hs e
          exact ⟨rfl, rfl⟩
    have hr : ∀ r : Option Int, suffix 'r' r = [] ∨
        ∃ r', suffix 'r' r = '_' :: r' := by
      intro r
      cases r with
      | none => exact Or.inl rfl
      | some r => exact Or.inr ⟨_, rfl⟩
    have hrr : ∀ r s : Option Int, suffix 'r' r =
        suffix 'r' s → r = s := by
      intro r s e
      cases r <;> cases s
      · rfl
      · cases e
      · cases e
      · simp only [suffix, List.cons.injEq, true_and] at e
        rw [showInt_inj _ _ e]
    cases h1 : p.timeIndex with
    | none =>
      cases h2 : q.timeIndex with
      | none =>
        rw [h1, h2] at h
        exact ⟨rfl, hrr _ _ h⟩
      | some t =>
        rw [h1, h2] at h
        cases h3 : p.realization with
        | none => rw [h3] at h; simp [suffix] at h
        | some r => rw [h3] at h; simp [suffix] at h
    | some t =>
      cases h2 : q.timeIndex with
      | none =>
        rw [h1, h2] at h
        cases h3 : q.realization with
        | none => rw [h3] at h; simp [suffix] at h
        | some r => rw [h3] at h; simp [suffix] at h
      | some t' =>
        rw [h1, h2, st, st] at h
        simp only [List.cons_append, List.cons.injEq, true_and] at h
        obtain ⟨e1, e2⟩ := cut _ _ _ _ (showInt_no_us t) (showInt_no_us t') (hr _) (hr _) h
        exact ⟨by rw [showInt_inj _ _ e1], hrr _ _ e2⟩

/-- C202: keys have no blanks. -/
theorem C202_no_blank (mode : KeyMode) (ix : Option Text) (p : Part) : ' ' ∉ makeKey mode ix p := by
  have h1 : ∀ t, ' ' ∉ underscored t := by
    intro t h
    obtain ⟨c, _, e⟩ := List.mem_map.1 h
    split at e
    · cases e
    · rename_i hc; exact hc e
  have h2 : ∀ z, ' ' ∉ showInt z := by
    intro z h
    have := showInt_no_ws z _ h
    revert this; decide
  simp only [makeKey, List.mem_append, not_or]
  have h3 : ∀ c z, c ≠ ' ' → ' ' ∉ suffix c z := by
    intro c z hc h
    cases z with
    | none => simp [suffix] at h
    | some z =>
      simp only [suffix, List.mem_cons] at h
      rcases h with h | h | h
      · cases h
      · exact hc h.symm
      · exact h2 _ h
  exact ⟨⟨h1 _, h3 _ _ (by decide)⟩, h3 _ _ (by decide)⟩

/-- C202 fails between properties of other titles or kinds: with the time index at the end of its title, or with an underscore in place of a blank, another
property has the same key; so does a facet named as an indexable element. -/
theorem C202_collision_violated (ix : Option Text) (p : Part) (t : Int) (h : p.timeIndex = some t) (hr : p.realization = none) :
    makeKey .title ix p = makeKey .title ix { p with title := p.title ++ '_' :: 't' :: showInt t, timeIndex := none } ∧
    makeKey .pk ix { p with facet := none, timeIndex := none } = makeKey .pk ix { p with facet := none, timeIndex := none, kind := underscored p.kind } ∧
    ∀ e f : Text, f ≠ e → makeKey .pk (some e) { p with facet := none, indexable := some f } = makeKey .pk (some e) { p with facet := some f, indexable := some e } := by
  have hu : ∀ a b, underscored (a ++ b) = underscored a ++ underscored b := fun a b => List.map_append
  have hs : underscored ('_' :: 't' :: showInt t) = '_' :: 't' :: showInt t := by
    have : ∀ l : Text, ' ' ∉ l → underscored l = l := by
      intro l hl
      induction l with
      | nil => rfl
      | cons c l ih =>
        simp only [List.mem_cons, not_or] at hl
        have := ih hl.2
        unfold underscored at this ⊢
        rw [List.map_cons, this, if_neg (fun e => hl.1 e.symm)]
    apply this
    intro hm
    simp only [List.mem_cons] at hm
    rcases hm with h | h | h
    · cases h
    · cases h
    · have := showInt_no_ws t _ h
      revert this; decide
  have hii : ∀ l, underscored (underscored l) = underscored l := by
    intro l
    unfold underscored
    rw [List.map_map]
    refine List.map_congr_left fun c _ => ?_
    simp only [Function.comp]
    split
    · simp
    · rfl
  refine ⟨?_, ?_, ?_⟩
  · simp only [makeKey, h, hr, hu, hs, suffix, List.append_nil]
  · simp only [makeKey, hr, hu, hii, suffix, List.append_nil]
  · intro e f hfe
    simp [makeKey, hfe]

/-- Two times of one property, and one titled as a method of the collection -/
def exParts : List Part := [⟨1, "saturation".toList, "SW".toList, some "water".toList, some 0, none, some "cells".toList⟩,
  ⟨2, "saturation".toList, "SW".toList, some "water".toList, some 1, none, some "cells".toList⟩, ⟨3, "thickness".toList, "items".toList, none, none, none, some "cells".toList⟩]

/-- The collection has methods `items` and `keys`. -/
def exOwn : Text → Value := fun k => if k = "items".toList ∨ k = "keys".toList then .own else .none

example : (∀ p ∈ exParts, exOwn (makeKey .pk none p) = .none) ∧ (exParts.Pairwise fun p q => makeKey .pk none p ≠ makeKey .pk none q) ∧
    keys .pk none exParts = ["saturation_water_t0".toList, "saturation_water_t1".toList, "thickness".toList] := by decide +kernel

example : exOwn (makeKey .title none ⟨3, "thickness".toList, "items".toList, none, none, none, some "cells".toList⟩) = .own := by decide +kernel

end Verif.Aps
