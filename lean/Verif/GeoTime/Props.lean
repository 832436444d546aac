import Verif.GeoTime.Model
import Mathlib.Data.List.GetD
import Mathlib.Tactic.Linarith
import Mathlib.Data.List.Perm.Basic

/-!
# C206: geologic time series
-/

namespace Verif.GeoTime
open Verif.Py

/-! ## specification -/

/-- oldest first -/
def OldestFirst (ts : List Int) : Prop := ts.Pairwise (· ≤ ·)

/-- what a reader of xml expects of a geologic time series: every Time node has a DateTime and a YearOffset -/
def Proper (x : Xml) : Prop := ∀ n ∈ x.times, n.date ≠ "" ∧ n.offset ≠ none

/-! ## lemmas -/

theorem sort_sorted (l : List Int) : OldestFirst (l.insertionSort (· ≤ ·)) := List.pairwise_insertionSort (· ≤ ·) l

theorem sort_perm (l : List Int) : (l.insertionSort (· ≤ ·)).Perm l := List.perm_insertionSort (· ≤ ·) l

theorem sorted_unique {a b : List Int} (ha : OldestFirst a) (hb : OldestFirst b) (h : a.Perm b) : a = b :=
  h.eq_of_pairwise (fun _ _ _ _ h1 h2 => le_antisymm h1 h2) ha hb

theorem before_eq (y : Int) : before y = -|y| := by
  unfold before
  split_ifs with h
  · rw [abs_of_pos h]
  · rw [abs_of_nonpos (by omega)]; omega

theorem loadLoop_ok : ∀ (ns : List TimeNode) (ts r : List Int), OldestFirst ts →
    (loadLoop ts ns = .ok r ↔ (∀ n ∈ ns, n.date ≠ "" ∧ n.offset ≠ none) ∧ OldestFirst r ∧ r.Perm (ts ++ ns.filterMap (·.offset)))
  | [], ts, r, h => by
    simp only [loadLoop, List.not_mem_nil, false_imp_iff, implies_true, true_and, List.filterMap_nil, List.append_nil, Except.ok.injEq]
    exact ⟨fun e => e ▸ ⟨h, List.Perm.refl _⟩, fun ⟨h1, h2⟩ => (sorted_unique h1 h h2).symm⟩
  | n :: ns, ts, r, h => by
    unfold loadLoop
    by_cases hd : n.date = ""
    · rw [if_pos hd]
      simp [hd]
    · rw [if_neg hd]
      cases ho : n.offset with
      | none => simp [ho]
      | some y =>
        simp only
        rw [loadLoop_ok ns _ r (sort_sorted _)]
        have hp : (((ts ++ [y]).insertionSort (· ≤ ·)) ++ ns.filterMap (·.offset)).Perm (ts ++ (n :: ns).filterMap (·.offset)) := by
          rw [List.filterMap_cons, ho]
          refine ((sort_perm _).append_right _).trans ?_
          simp
        simp only [List.forall_mem_cons, hd, ho, ne_eq, not_false_eq_true, reduceCtorEq, and_self, true_and]
        exact and_congr Iff.rfl (and_congr Iff.rfl ⟨fun g => g.trans hp, fun g => g.trans hp.symm⟩)

theorem indexLoop_some {α : Type} [DecidableEq α] (f : Int → α) (t : α) : ∀ (ts : List Int) (n i : Nat),
    indexLoop f t n ts = some i ↔ n ≤ i ∧ (∃ y, ts[i - n]? = some y ∧ f y = t) ∧ ∀ j < i - n, ∀ y, ts[j]? = some y → f y ≠ t
  | [], n, i => by simp [indexLoop]
  | y :: ys, n, i => by
    unfold indexLoop
    by_cases h : f y = t
    · rw [if_pos h]
      constructor
      · intro e
        cases e
        exact ⟨le_refl _, ⟨y, by simp, h⟩, by simp⟩
      · rintro ⟨h1, -, h3⟩
        by_contra hne
        have hlt : n < i := by
          rcases Nat.lt_or_ge n i with g | g
          · exact g
          · exact absurd (by rw [Nat.le_antisymm h1 g]) hne
        exact h3 0 (by omega) y (by simp) h
    · rw [if_neg h, indexLoop_some f t ys (n + 1) i]
      constructor
      · rintro ⟨h1, ⟨z, h2, h3⟩, h4⟩
        refine ⟨by omega, ⟨z, ?_, h3⟩, ?_⟩
        · rw [show i - n = (i - (n + 1)) + 1 by omega, List.getElem?_cons_succ]; exact h2
        · intro j hj w hw
          cases j with
          | zero => simp only [List.getElem?_cons_zero, Option.some.injEq] at hw; rw [← hw]; exact h
          | succ j => rw [List.getElem?_cons_succ] at hw; exact h4 j (by omega) w hw
      · rintro ⟨h1, ⟨z, h2, h3⟩, h4⟩
        have hne : i ≠ n := by
          rintro rfl
          simp only [Nat.sub_self, List.getElem?_cons_zero, Option.some.injEq] at h2
          exact h (h2 ▸ h3)
        refine ⟨by omega, ⟨z, ?_, h3⟩, ?_⟩
        · rw [show i - n = (i - (n + 1)) + 1 by omega, List.getElem?_cons_succ] at h2; exact h2
        · intro j hj w hw
          exact h4 (j + 1) (by omega) w (by rw [List.getElem?_cons_succ]; exact hw)

/-! ## C206 -/

/-- **C206** a series made from years, before or after present by sign, has the negative of the size of each, oldest first; only an empty list is
refused, and both ways of making one agree -/
theorem C206_from_years (l : List Int) :
    (l = [] → fromYearList l = .error .assertion) ∧ (l ≠ [] → ∃ ts, fromYearList l = .ok ts ∧ OldestFirst ts ∧ ts.Perm (l.map fun y => -|y|)) ∧
    fromList l = fromYearList l := by
  refine ⟨?_, ?_, ?_⟩
  · rintro rfl; rfl
  · intro h
    refine ⟨(l.map before).insertionSort (· ≤ ·), ?_, sort_sorted _, ?_⟩
    · rw [fromYearList, if_neg (by simpa using h)]
    · rw [show (fun y : Int => -|y|) = before from funext fun y => (before_eq y).symm]
      exact sort_perm _
  · unfold fromList fromYearList
    by_cases h : l.length = 0
    · rw [if_pos h, if_pos (by omega)]
    · rw [if_neg h, if_neg (by omega)]
      rfl

/-- **C206** reading xml, from whatever writer: it succeeds exactly if every Time node has a DateTime and a YearOffset and metadata do not say that
the series is one of dates; the result has the year offsets, oldest first, in whatever order they are stored -/
theorem C206_load (x : Xml) (ts : List Int) :
    load x = .ok ts ↔ Proper x ∧ x.meta? ≠ some .human ∧ OldestFirst ts ∧ ts.Perm (x.times.filterMap (·.offset)) := by
  have key := fun r => loadLoop_ok x.times [] r List.Pairwise.nil
  simp only [List.nil_append] at key
  unfold load Proper
  cases h : loadLoop [] x.times with
  | error e =>
    simp only [reduceCtorEq, false_iff]
    rintro ⟨h1, -, h2, h3⟩
    rw [(key ts).mpr ⟨h1, h2, h3⟩] at h
    cases h
  | ok r =>
    obtain ⟨h1, h2, h3⟩ := (key r).mp h
    simp only
    by_cases hm : x.meta? = some .human
    · simp [hm]
    · rw [if_neg hm]
      constructor
      · intro e
        cases e
        exact ⟨h1, hm, h2, h3⟩
      · rintro ⟨-, -, g1, g2⟩
        rw [sorted_unique g1 h2 (g2.trans h3.symm)]

/-- **C206** a series made from years and written to xml is known as geologic, and read back as it was -/
theorem C206_round_trip (l ts : List Int) (h : fromYearList l = .ok ts) : timeframeOf (createXml ts) = .ok .geologic ∧ load (createXml ts) = .ok ts := by
  refine ⟨rfl, (C206_load _ _).mpr ⟨?_, by simp [createXml], ?_, ?_⟩⟩
  · intro n hn
    obtain ⟨y, -, rfl⟩ := List.mem_map.mp hn
    simp
  · obtain ⟨ts', h1, h2, -⟩ := (C206_from_years l).2.1 (by rintro rfl; simp [fromYearList] at h)
    rw [h] at h1
    cases h1
    exact h2
  · simp [createXml, List.filterMap_map, Function.comp_def]

/-- **C206** a series written without the metadata of this library is known as geologic too, and can be read, if it has any times -/
theorem C206_foreign (x : Xml) (hm : x.meta? = none) (hp : Proper x) (h0 : x.times ≠ []) :
    timeframeOf x = .ok .geologic ∧ ∃ ts, load x = .ok ts := by
  constructor
  · unfold timeframeOf
    rw [hm]
    cases h : x.times with
    | nil => exact absurd h h0
    | cons n ns =>
      have := (hp n (by rw [h]; simp)).2
      simp [this]
  · exact ⟨(x.times.filterMap (·.offset)).insertionSort (· ≤ ·), (C206_load _ _).mpr ⟨hp, by simp [hm], sort_sorted _, sort_perm _⟩⟩

/-- **C206** times by index: from the start, from the end by negative indices, and none for others -/
theorem C206_timestamp (ts : List Int) :
    (∀ i : Nat, i < ts.length → timestamp ts i = ts[i]? ∧ timestamp ts (-(i : Int) - 1) = ts.reverse[i]?) ∧
    (∀ i : Int, (ts.length ≤ i ∨ i < -ts.length) → timestamp ts i = none) ∧ lastTimestamp ts = ts.getLast? := by
  have key : ∀ i : Nat, i < ts.length → timestamp ts i = ts[i]? ∧ timestamp ts (-(i : Int) - 1) = ts.reverse[i]? := by
    intro i hi
    constructor
    · unfold timestamp
      rw [if_neg (by omega), if_pos (by omega)]
      simp
    · unfold timestamp
      rw [if_neg (by omega), if_neg (by omega), List.getElem?_reverse hi]
      congr 1
      omega
  refine ⟨key, ?_, ?_⟩
  · intro i hi
    unfold timestamp
    rw [if_pos (by omega)]
  · unfold lastTimestamp
    by_cases h : ts.length = 0
    · rw [List.length_eq_zero_iff] at h
      simp [h]
    · rw [if_pos h]
      have := (key 0 (by omega)).2
      simp only [Nat.cast_zero, neg_zero, zero_sub] at this
      rw [this, List.getElem?_reverse (by omega), List.getLast?_eq_getElem?, Nat.sub_zero]

/-- **C206** the index for a year is that of the first time which is that year, and there is none exactly if no time is -/
theorem C206_index (ts : List Int) (y : Int) :
    (∀ i, indexForYear ts y = some i ↔ ts[i]? = some y ∧ ∀ j < i, ts[j]? ≠ some y) ∧ (indexForYear ts y = none ↔ y ∉ ts) := by
  have key : ∀ i, indexForYear ts y = some i ↔ ts[i]? = some y ∧ ∀ j < i, ts[j]? ≠ some y := by
    intro i
    unfold indexForYear
    rw [indexLoop_some]
    simp only [Nat.zero_le, Nat.sub_zero, id_eq, exists_eq_right, true_and]
    refine and_congr Iff.rfl ⟨fun h j hj e => h j hj y e rfl, fun h j hj w hw e => h j hj (e ▸ hw)⟩
  refine ⟨key, ?_⟩
  constructor
  · intro h hy
    have hex : ∃ i, ts[i]? = some y := List.mem_iff_getElem?.mp hy
    have := (key (Nat.find hex)).mpr ⟨Nat.find_spec hex, fun j hj => Nat.find_min hex hj⟩
    rw [h] at this
    cases this
  · intro hy
    cases h : indexForYear ts y with
    | none => rfl
    | some i => exact absurd (List.mem_of_getElem? ((key i).mp h).1) hy

/-- **C206** string forms of whole millions of years tell them apart, and say how many there are -/
theorem C206_millions_partial (round : Nat → Nat) (n : Nat) : timeStr round (-(n * 1000000 : Int)) = .whole (-n) := by
  unfold timeStr
  have h : (-((n : Int) * 1000000)).natAbs = n * 1000000 := by omega
  simp only [h]
  rw [if_neg (by omega)]
  congr 1
  rw [Int.fdiv_eq_ediv_of_nonneg _ (by norm_num)]
  omega

/-- **C206 fails** for string forms: documented as positive numbers, they never are -/
theorem C206_positive_violated (round : Nat → Nat) (y : Int) :
    (∃ n ≤ 0, timeStr round y = .whole n) ∨ ∃ n ≤ 0, timeStr round y = .thousandths n := by
  unfold timeStr
  simp only
  split_ifs
  · exact .inr ⟨_, by omega, rfl⟩
  · refine .inl ⟨_, ?_, rfl⟩
    rw [Int.fdiv_eq_ediv_of_nonneg _ (by norm_num)]
    omega

/-- **C206 fails** for the index of a time given as a string: of two times ten million years ago or more, in the same million years, the later one
has the string form of the earlier, so asking for its index by it gives the other -/
theorem C206_index_string_violated (round : Nat → Nat) (m a b : Nat) (hm : 10 ≤ m) (ha : a < b) (hb : b < 1000000) (old new : Int)
    (ho : old = -((m : Int) * 1000000 + b)) (hn : new = -((m : Int) * 1000000 + a)) (h1 : 0 < a) :
    OldestFirst [old, new] ∧ old ≠ new ∧ indexForYear [old, new] new = some 1 ∧ indexForLabel round [old, new] (timeStr round new) = some 0 := by
  have hl : timeStr round old = timeStr round new := by
    have e1 : old.natAbs = m * 1000000 + b := by omega
    have e2 : new.natAbs = m * 1000000 + a := by omega
    unfold timeStr
    simp only [e1, e2]
    rw [if_neg (by omega), if_neg (by omega), Int.fdiv_eq_ediv_of_nonneg _ (by norm_num), Int.fdiv_eq_ediv_of_nonneg _ (by norm_num)]
    congr 1
    omega
  have hne : old ≠ new := by omega
  refine ⟨?_, hne, ?_, ?_⟩
  · unfold OldestFirst
    simp only [List.pairwise_cons, List.mem_singleton, forall_eq, List.not_mem_nil, false_imp_iff, implies_true, List.Pairwise.nil, and_self, and_true]
    omega
  · simp [indexForYear, indexLoop, hne]
  · simp [indexForLabel, indexLoop, hl]

/-- **C206** two series are equivalent exactly if they are one part, or have the same timeframe and times -/
theorem C206_equivalent (a b : Series) :
    isEquivalent a none = false ∧
    (isEquivalent a (some b) = true ↔ a.uuid = b.uuid ∨ (a.timeframe = b.timeframe ∧ a.stamps = b.stamps)) := by
  refine ⟨rfl, ?_⟩
  unfold isEquivalent
  simp only
  by_cases h1 : a.uuid = b.uuid
  · simp [h1]
  · rw [if_neg h1]
    by_cases h2 : a.stamps.length = b.stamps.length
    · by_cases h3 : a.timeframe = b.timeframe
      · simp [h1, h2, h3]
      · simp [h1, h2, h3]
    · have h4 : a.stamps ≠ b.stamps := fun e => h2 (by rw [e])
      simp [h1, h2, h4]

theorem mapM_item (ts : List Int) : ∀ l : List Int, (∀ i ∈ l, 0 ≤ i ∧ i < ts.length) →
    l.mapM (item ts) = .ok (l.map fun i => ts.getD i.toNat 0)
  | [], _ => rfl
  | i :: l, h => by
    have hi := h i (by simp)
    have h1 : item ts i = .ok (ts.getD i.toNat 0) := by
      have hlt : i.toNat < ts.length := by omega
      unfold item
      rw [if_pos hi.1, List.getElem?_eq_getElem hlt, List.getD_eq_getElem _ _ hlt]
    rw [List.mapM_cons, h1, mapM_item ts l fun j hj => h j (List.mem_cons_of_mem _ hj)]
    rfl

/-- **C206** times selected by indices from the start, in any order: the times at those indices, oldest first -/
theorem C206_selected_partial (ts indices : List Int) (ho : OldestFirst ts) (h : ∀ i ∈ indices, 0 ≤ i ∧ i < ts.length) :
    ∃ r, selected ts indices = .ok r ∧ OldestFirst r ∧ r.Perm (indices.map fun i => ts.getD i.toNat 0) := by
  have hs : ∀ i ∈ indices.insertionSort (· ≤ ·), 0 ≤ i ∧ i < ts.length := fun i hi => h i ((sort_perm _).mem_iff.mp hi)
  refine ⟨_, mapM_item ts _ hs, ?_, (sort_perm _).map _⟩
  unfold OldestFirst
  rw [List.pairwise_map]
  refine (sort_sorted indices).imp_of_mem ?_
  intro i j hi hj hij
  have hi' := hs i hi
  have hj' := hs j hj
  have h1 : i.toNat < ts.length := by omega
  have h2 : j.toNat < ts.length := by omega
  rw [List.getD_eq_getElem _ _ h1, List.getD_eq_getElem _ _ h2]
  rcases Nat.lt_or_ge i.toNat j.toNat with g | g
  · exact List.pairwise_iff_getElem.mp ho _ _ h1 h2 g
  · have : i.toNat = j.toNat := by omega
    simp [this]

/-- **C206 fails** for indices from the end, which `timestamp` takes: the first and last times of a series come out youngest first -/
theorem C206_selected_violated (a b : Int) (mid : List Int) (hab : a < b) :
    selected (a :: mid ++ [b]) [0, -1] = .ok [b, a] ∧ ¬ OldestFirst [b, a] := by
  constructor
  · have e : ([0, -1] : List Int).insertionSort (· ≤ ·) = [-1, 0] := by decide
    unfold selected
    rw [e]
    have h1 : item (a :: mid ++ [b]) (-1) = .ok b := by
      have : ((a :: mid ++ [b]).length + (-1 : Int)).toNat = (a :: mid).length := by simp
      unfold item
      rw [if_neg (by norm_num), if_pos (by simp; omega), this, List.getElem?_append_right (le_refl _)]
      simp
    have h2 : item (a :: mid ++ [b]) 0 = .ok a := by simp [item]
    rw [List.mapM_cons, h1, List.mapM_cons, h2]
    rfl
  · unfold OldestFirst
    simp only [List.pairwise_cons, List.mem_singleton, forall_eq, List.not_mem_nil, false_imp_iff, implies_true, List.Pairwise.nil, and_self, and_true]
    omega

/-- **C206 fails** for merging: whatever geologic series are given, there is no result -/
theorem C206_merge_violated (xs : List Xml) : ∀ ts, merge xs ≠ .ok ts := by
  intro ts h
  cases xs with
  | nil => simp [merge, fromList] at h
  | cons x xs =>
    unfold merge at h
    cases h1 : timeframeOf x with
    | error e => simp [h1] at h
    | ok f =>
      cases h2 : load x with
      | error e => simp [h1, h2] at h
      | ok r => simp [h1, h2] at h

/-! ## the hypotheses can be met -/

example : fromYearList [66000000, -145000000, 0, 201400000] = .ok [-201400000, -145000000, -66000000, 0] := by decide

example : load ⟨none, [⟨"2000-01-01", some (-5)⟩, ⟨"2000-01-01", some (-9)⟩, ⟨"2000-01-01", some (-7)⟩]⟩ = .ok [-9, -7, -5] := by decide

example : Proper ⟨none, [⟨"2000-01-01", some (-5)⟩, ⟨"2000-01-01", some (-9)⟩]⟩ := by
  intro n hn
  simp only [List.mem_cons, List.not_mem_nil, or_false] at hn
  rcases hn with rfl | rfl <;> decide

example : selected [-9, -7, -5, -1] [3, 0, 2] = .ok [-9, -5, -1] := by decide

example : timeStr id (-65400000) = .whole (-66) := by decide

end Verif.GeoTime
