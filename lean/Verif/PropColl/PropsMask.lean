import Verif.PropColl.Mask
import Mathlib.Tactic.Push
import Mathlib.Tactic.Linarith

/-! # C104, C105: masked property arrays; minimum and maximum values -/

namespace Verif.PropColl
open Verif.Py

/-- the element is masked out -/
def Hidden (m : Option (Arr Bool)) (i : List Nat) : Prop := ∃ b, m = some b ∧ b.elem i = true

theorem hides_iff (m : Option (Arr Bool)) (i : List Nat) : hides m i = true ↔ Hidden m i := by
  cases m <;> simp [hides, Hidden]

/-- the element is flagged as inactive in the support, which has the shape of the array -/
def Inactive (inactive : Option (Arr Bool)) (a : Arr Num) (i : List Nat) : Prop :=
  ∃ b, inactive = some b ∧ b.shape = a.shape ∧ b.elem i = true

/-- the element holds the value, a number other than NaN -/
def Holds (a : Arr Num) (exclude : Option Num) (i : List Nat) : Prop := ∃ v : Rat, exclude = some (some v) ∧ a.elem i = some v

theorem numEq_iff (x e : Num) : numEq x e = true ↔ ∃ v : Rat, x = some v ∧ e = some v := by
  cases x with
  | none => simp [numEq]
  | some a =>
    cases e with
    | none => simp [numEq]
    | some b =>
      simp only [numEq, decide_eq_true_eq, Option.some.injEq]
      constructor
      · rintro rfl; exact ⟨a, rfl, rfl⟩
      · rintro ⟨v, h1, h2⟩; rw [h1, h2]

theorem applyInactive_plain (inactive : Option (Arr Bool)) (ex : Bool) (a : Arr Num) :
    ∃ m, applyInactive inactive ex false a = .ok m ∧
      ∀ i, Hidden m i ↔ (ex = true ∧ Inactive inactive a i) := by
  cases ex with
  | false => exact ⟨none, rfl, by simp [Hidden]⟩
  | true =>
    cases inactive with
    | none => exact ⟨none, rfl, by simp [Hidden, Inactive]⟩
    | some b =>
      by_cases h : b.shape = a.shape
      · exact ⟨some b, by simp [applyInactive, h], by simp [Hidden, Inactive, h]⟩
      · exact ⟨none, by simp [applyInactive, h], by simp [Hidden, Inactive, h]⟩

/-- For a value to exclude other than zero (none at all, NaN, or a number), exactly the elements inactive in the support
and those holding the value are masked out. -/
theorem C104_masked_partial (inactive : Option (Arr Bool)) (ex : Bool) (exclude : Option Num) (a : Arr Num)
    (h0 : exclude ≠ some (some 0)) :
    ∃ m, maskedArray inactive ex exclude false a = .ok m ∧
      ∀ i, Hidden m i ↔ (ex = true ∧ Inactive inactive a i) ∨ Holds a exclude i := by
  obtain ⟨m, hm, hi⟩ := applyInactive_plain inactive ex a
  unfold maskedArray
  rw [hm]
  simp only
  by_cases ht : truthy exclude = true
  · rw [if_pos ht]
    have key : ∀ i, numEq (a.elem i) (exclude.getD none) = true ↔ Holds a exclude i := by
      intro i
      rw [numEq_iff]
      cases exclude with
      | none => simp [truthy] at ht
      | some e =>
        unfold Holds
        simp only [Option.getD_some, Option.some.injEq]
        constructor
        · rintro ⟨v, h1, h2⟩; exact ⟨v, h2, h1⟩
        · rintro ⟨v, h1, h2⟩; exact ⟨v, h2, h1⟩
    cases m with
    | none =>
      refine ⟨_, rfl, fun i => ?_⟩
      have := hi i
      simp only [Hidden, reduceCtorEq, false_and, exists_false, false_iff] at this
      simp only [Hidden, Option.some.injEq, exists_eq_left']
      rw [key i]
      tauto
    | some b =>
      refine ⟨_, rfl, fun i => ?_⟩
      have := hi i
      simp only [Hidden, Option.some.injEq, exists_eq_left'] at this
      simp only [Hidden, Option.some.injEq, exists_eq_left', Bool.or_eq_true]
      rw [key i, this]
  · rw [if_neg ht]
    refine ⟨m, rfl, fun i => ?_⟩
    rw [hi i]
    have : ¬ Holds a exclude i := by
      rintro ⟨v, rfl, -⟩
      simp only [truthy, decide_eq_true_eq, not_not] at ht
      exact h0 (by rw [ht])
    tauto

/-- Zero as the value to exclude is never masked out: the mask is that of the inactive elements alone. -/
theorem C104_null_zero (inactive : Option (Arr Bool)) (ex : Bool) (a : Arr Num) :
    ∃ m, maskedArray inactive ex (some (some 0)) false a = .ok m ∧
      ∀ i, Hidden m i ↔ ex = true ∧ Inactive inactive a i := by
  obtain ⟨m, hm, hi⟩ := applyInactive_plain inactive ex a
  refine ⟨m, ?_, hi⟩
  unfold maskedArray
  rw [hm]
  simp [truthy]

/-- so null values of zero are left in -/
theorem C104_null_zero_violated : ∃ (a : Arr Num) (i : List Nat), a.elem i = some 0 ∧
    ∃ m, partMask none false (some 0) true a = .ok m ∧ ¬ Hidden m i := by
  refine ⟨⟨[1], fun _ => some 0⟩, [0], rfl, none, ?_, by simp [Hidden]⟩
  simp [partMask, maskedArray, applyInactive, nullValue, truthy]

/-- The mask of a property array, with null values excluded: inactive elements, and elements holding the null value of
a discrete property (unless it is zero).  NaN values of a continuous property stay unmasked. -/
theorem C104_part_partial (inactive : Option (Arr Bool)) (continuous : Bool) (null : Option Rat) (excludeNull : Bool)
    (a : Arr Num) (h0 : continuous = true ∨ null ≠ some 0 ∨ excludeNull = false) :
    ∃ m, partMask inactive continuous null excludeNull a = .ok m ∧
      ∀ i, Hidden m i ↔ Inactive inactive a i ∨
        (excludeNull = true ∧ continuous = false ∧ ∃ v, null = some v ∧ a.elem i = some v) := by
  unfold partMask
  have h : (if excludeNull then nullValue continuous null else none) ≠ some (some 0) := by
    cases excludeNull <;> cases continuous <;> cases null <;> simp_all [nullValue]
  obtain ⟨m, hm, hi⟩ := C104_masked_partial inactive true _ a h
  refine ⟨m, hm, fun i => ?_⟩
  rw [hi i]
  simp only [true_and]
  apply or_congr Iff.rfl
  cases excludeNull <;> cases continuous <;> cases null <;> simp [nullValue, Holds]

/-- NaN is not masked, although it is the null value of a continuous property -/
theorem C104_nan_violated : ∃ (a : Arr Num) (i : List Nat), a.elem i = none ∧ nullValue true none = some none ∧
    ∃ m, partMask none true none true a = .ok m ∧ ¬ Hidden m i := by
  refine ⟨⟨[1], fun _ => none⟩, [0], rfl, rfl, ?_⟩
  obtain ⟨m, hm, hi⟩ := C104_part_partial none true none true ⟨[1], fun _ => none⟩ (Or.inl rfl)
  refine ⟨m, hm, fun h => ?_⟩
  rcases (hi [0]).mp h with ⟨b, hb, -⟩ | ⟨-, h, -⟩
  · cases hb
  · cases h

/-- For a points array on a support with a single axis, the three coordinates of an inactive element are masked out. -/
theorem C104_points_partial (n : Nat) (b : Arr Bool) (a : Arr Num) (hb : b.shape = [n]) (ha : a.shape = [n, 3]) :
    ∃ m, maskedArray (some b) true none true a = .ok m ∧ ∀ (i d : Nat), Hidden m [i, d] ↔ b.elem [i] = true := by
  unfold maskedArray applyInactive
  simp only [ha, hb, if_true]
  have h1 : (decide (List.length [n, 3] > 1) && decide ([n, 3].getLast? = some 3)) = true := by simp
  have h2 : (decide (List.length [n] + 1 = List.length [n, 3]) && decide ([n] = [n, 3].dropLast)) = true := by simp
  rw [if_pos h1, if_pos h2]
  unfold pointsMask
  simp only [hb, List.reverse_cons, List.reverse_nil, List.nil_append, List.cons_append]
  simp only [broadcast, if_true, List.tail_cons, Option.map_some, List.headD_cons,
    show ¬ ((1 : Nat) = 3) by decide, if_false]
  refine ⟨_, rfl, ?_⟩
  intro i d
  simp [Hidden]

/-- On a support with more axes the mask is not that of the inactive elements: for a grid of 2 x 2 x 2 cells masking
raises a ValueError, and for one of 1 x 3 x 3 cells the wrong points are masked out. -/
theorem C104_points_violated :
    (∃ (b : Arr Bool) (a : Arr Num), b.shape = [2, 2, 2] ∧ a.shape = [2, 2, 2, 3] ∧
      (match maskedArray (some b) true none true a with | .error e => e = .value | .ok _ => False)) ∧
    (∃ (b : Arr Bool) (a : Arr Num), b.shape = [1, 3, 3] ∧ a.shape = [1, 3, 3, 3] ∧
      ∃ m, maskedArray (some b) true none true a = .ok m ∧ b.elem [0, 0, 1] = true ∧ ¬ Hidden m [0, 0, 1, 0]) := by
  refine ⟨⟨⟨[2, 2, 2], fun _ => false⟩, ⟨[2, 2, 2, 3], fun _ => some 0⟩, rfl, rfl, ?_⟩,
    ⟨⟨[1, 3, 3], fun i => decide (i = [0, 0, 1])⟩, ⟨[1, 3, 3, 3], fun _ => some 0⟩, rfl, rfl, _, rfl, by decide, ?_⟩⟩
  · rfl
  · rintro ⟨b, hb, h⟩
    cases hb
    revert h
    decide

/-- and an array of points is never given the mask of the inactive elements by way of the collection -/
theorem C104_points_part_violated : ∃ (b : Arr Bool) (a : Arr Num), b.shape = [1] ∧ a.shape = [1, 3] ∧
    b.elem [0] = true ∧ ∃ m, partMask (some b) true none false a = .ok m ∧ ¬ Hidden m [0, 0] := by
  refine ⟨⟨[1], fun _ => true⟩, ⟨[1, 3], fun _ => some 0⟩, rfl, rfl, rfl, none, rfl, by simp [Hidden]⟩

/-! ### minimum and maximum -/

/-- `m` is the least of the numbers, `none` if there is none -/
def Least (l : List Rat) (m : Option Rat) : Prop :=
  (m = none ↔ l = []) ∧ ∀ v, m = some v → v ∈ l ∧ ∀ x ∈ l, v ≤ x

/-- `m` is the greatest of the numbers, `none` if there is none -/
def Greatest (l : List Rat) (m : Option Rat) : Prop :=
  (m = none ↔ l = []) ∧ ∀ v, m = some v → v ∈ l ∧ ∀ x ∈ l, x ≤ v

theorem foldl_min (t : List Rat) : ∀ x : Rat, t.foldl min x ∈ x :: t ∧ ∀ y ∈ x :: t, t.foldl min x ≤ y := by
  induction t with
  | nil => intro x; simp
  | cons z t ih =>
    intro x
    obtain ⟨h1, h2⟩ := ih (min x z)
    simp only [List.foldl_cons]
    constructor
    · rcases List.mem_cons.mp h1 with h | h
      · rw [h]
        rcases min_choice x z with h | h <;> rw [h] <;> simp
      · simp [h]
    · intro y hy
      have hm := h2 (min x z) List.mem_cons_self
      rcases List.mem_cons.mp hy with rfl | hy
      · exact hm.trans (min_le_left _ _)
      · rcases List.mem_cons.mp hy with rfl | hy
        · exact hm.trans (min_le_right _ _)
        · exact h2 y (List.mem_cons_of_mem _ hy)

theorem foldl_max (t : List Rat) : ∀ x : Rat, t.foldl max x ∈ x :: t ∧ ∀ y ∈ x :: t, y ≤ t.foldl max x := by
  induction t with
  | nil => intro x; simp
  | cons z t ih =>
    intro x
    obtain ⟨h1, h2⟩ := ih (max x z)
    simp only [List.foldl_cons]
    constructor
    · rcases List.mem_cons.mp h1 with h | h
      · rw [h]
        rcases max_choice x z with h | h <;> rw [h] <;> simp
      · simp [h]
    · intro y hy
      have hm := h2 (max x z) List.mem_cons_self
      rcases List.mem_cons.mp hy with rfl | hy
      · exact (le_max_left _ _).trans hm
      · rcases List.mem_cons.mp hy with rfl | hy
        · exact (le_max_right _ _).trans hm
        · exact h2 y (List.mem_cons_of_mem _ hy)

theorem listMin_least (l : List Rat) : Least l (listMin l) := by
  cases l with
  | nil => simp [Least, listMin]
  | cons x t =>
    refine ⟨by simp [listMin], ?_⟩
    intro v hv
    simp only [listMin, Option.some.injEq] at hv
    subst hv
    exact foldl_min t x

theorem listMax_greatest (l : List Rat) : Greatest l (listMax l) := by
  cases l with
  | nil => simp [Greatest, listMax]
  | cons x t =>
    refine ⟨by simp [listMax], ?_⟩
    intro v hv
    simp only [listMax, Option.some.injEq] at hv
    subst hv
    exact foldl_max t x

/-- an index of an element of an array of the shape -/
def InShape : List Nat → List Nat → Prop
  | [], [] => True
  | n :: s, i :: t => i < n ∧ InShape s t
  | _, _ => False

theorem mem_indices : ∀ (s i : List Nat), i ∈ indices s ↔ InShape s i
  | [], [] => by simp [indices, InShape]
  | [], _ :: _ => by simp [indices, InShape]
  | n :: s, [] => by simp [indices, InShape]
  | n :: s, i :: t => by
    have := mem_indices s t
    simp only [indices, List.mem_flatMap, List.mem_range, List.mem_map, List.cons.injEq, InShape, ← this]
    constructor
    · rintro ⟨j, hj, k, hk, rfl, rfl⟩; exact ⟨hj, hk⟩
    · rintro ⟨hi, ht⟩; exact ⟨i, hi, t, ht, rfl, rfl⟩

theorem mem_visible (a : Arr Num) (m : Option (Arr Bool)) (v : Rat) :
    v ∈ visible a m ↔ ∃ i, InShape a.shape i ∧ ¬ Hidden m i ∧ a.elem i = some v := by
  unfold visible
  simp only [List.mem_filterMap, List.mem_filter, mem_indices, ← hides_iff]
  constructor
  · rintro ⟨i, ⟨h1, h2⟩, h3⟩; exact ⟨i, h1, by simpa using h2, h3⟩
  · rintro ⟨i, h1, h2, h3⟩; exact ⟨i, ⟨h1, by simpa using h2⟩, h3⟩

/-- the least and greatest of the numbers at the elements for which `p` holds; none if there are none -/
def Limits (a : Arr Num) (p : List Nat → Prop) (r : Option Rat × Option Rat) : Prop :=
  ((r.1 = none ↔ r.2 = none) ∧ (r.1 = none ↔ ∀ i, InShape a.shape i → p i → a.elem i = none)) ∧
  (∀ v, r.1 = some v → (∃ i, InShape a.shape i ∧ p i ∧ a.elem i = some v) ∧
    ∀ i x, InShape a.shape i → p i → a.elem i = some x → v ≤ x) ∧
  (∀ v, r.2 = some v → (∃ i, InShape a.shape i ∧ p i ∧ a.elem i = some v) ∧
    ∀ i x, InShape a.shape i → p i → a.elem i = some x → x ≤ v)

theorem limits_of (a : Arr Num) (m : Option (Arr Bool)) (p : List Nat → Prop) (hp : ∀ i, ¬ Hidden m i ↔ p i) :
    Limits a p (listMin (visible a m), listMax (visible a m)) := by
  have h1 := listMin_least (visible a m)
  have h2 := listMax_greatest (visible a m)
  have hmem : ∀ v, v ∈ visible a m ↔ ∃ i, InShape a.shape i ∧ p i ∧ a.elem i = some v := by
    intro v
    rw [mem_visible]
    constructor
    · rintro ⟨i, h1, h2, h3⟩; exact ⟨i, h1, (hp i).mp h2, h3⟩
    · rintro ⟨i, h1, h2, h3⟩; exact ⟨i, h1, (hp i).mpr h2, h3⟩
  have hnil : visible a m = [] ↔ ∀ i, InShape a.shape i → p i → a.elem i = none := by
    rw [List.eq_nil_iff_forall_not_mem]
    constructor
    · intro h i hi hpi
      cases he : a.elem i with
      | none => rfl
      | some v => exact absurd ((hmem v).mpr ⟨i, hi, hpi, he⟩) (h v)
    · intro h v hv
      obtain ⟨i, hi, hpi, he⟩ := (hmem v).mp hv
      rw [h i hi hpi] at he
      cases he
  refine ⟨⟨h1.1.trans h2.1.symm, h1.1.trans hnil⟩, ?_, ?_⟩
  · intro v hv
    obtain ⟨g1, g2⟩ := h1.2 v hv
    exact ⟨(hmem v).mp g1, fun i x hi hpi hx => g2 x ((hmem x).mpr ⟨i, hi, hpi, hx⟩)⟩
  · intro v hv
    obtain ⟨g1, g2⟩ := h2.2 v hv
    exact ⟨(hmem v).mp g1, fun i x hi hpi hx => g2 x ((hmem x).mpr ⟨i, hi, hpi, hx⟩)⟩

/-- Minimum and maximum kept when an array is added to the imported list.  Continuous: over all elements that are not
NaN.  Discrete: over all elements, if there is no null value; over the active elements that are not null, if there is a
null value other than zero. -/
theorem C105_import_partial (inactive : Option (Arr Bool)) (a : Arr Num) :
    (∀ null, ∃ r, minMaxCached inactive a null false = .ok r ∧ Limits a (fun _ => True) r) ∧
    (∀ r, minMaxCached inactive a none true = .ok r → Limits a (fun _ => True) r) ∧
    (∀ v : Rat, v ≠ 0 → ∃ r, minMaxCached inactive a (some (some v)) true = .ok r ∧
      Limits a (fun i => ¬ Inactive inactive a i ∧ a.elem i ≠ some v) r) := by
  have hnone : ∀ i, ¬ Hidden none i ↔ True := by intro i; simp [Hidden]
  refine ⟨fun null => ⟨_, by unfold minMaxCached; rfl, limits_of a none _ hnone⟩, ?_, ?_⟩
  · intro r h
    unfold minMaxCached at h
    simp only [if_true] at h
    split at h
    · cases h
    · cases h
      exact limits_of a none _ hnone
  · intro v hv
    obtain ⟨m, hm, hi⟩ := C104_masked_partial inactive true (some (some v)) a (by simpa using hv)
    refine ⟨_, by unfold minMaxCached; simp only [if_true, hm], limits_of a m _ ?_⟩
    intro i
    rw [hi i]
    simp [Holds, not_or, eq_comm]

/-- with a null value of zero, the null elements count -/
theorem C105_null_zero_violated : ∃ (a : Arr Num) (r : Option Rat × Option Rat),
    minMaxCached none a (some (some 0)) true = .ok r ∧ ¬ Limits a (fun i => a.elem i ≠ some 0) r := by
  refine ⟨⟨[2], fun i => if i = [0] then some 0 else some 5⟩, (some 0, some 5), by decide +kernel, ?_⟩
  rintro ⟨-, h, -⟩
  obtain ⟨⟨i, -, h1, h2⟩, -⟩ := h 0 rfl
  exact h1 h2

/-- A null value that no element holds changes the minimum: with it the inactive elements are left out, without it they
count. -/
theorem C105_inactive_violated : ∃ (b : Arr Bool) (a : Arr Num) (v : Rat), (∀ i, a.elem i ≠ some v) ∧
    minMaxCached (some b) a (some (some v)) true ≠ minMaxCached (some b) a none true := by
  refine ⟨⟨[2], fun i => decide (i = [0])⟩, ⟨[2], fun i => if i = [0] then some 0 else some 5⟩, -1, ?_, by decide +kernel⟩
  intro i
  dsimp only
  split <;> decide

/-- a constant added to the imported list is its own minimum and maximum, unless it is null or NaN or a boolean -/
theorem C105_import_constant (const : Num) (null : Option Num) (isBool discrete : Bool) :
    (minMaxConst const null isBool discrete = (const, const) ∧ ¬ (∃ v : Rat, const = some v ∧ null = some (some v)) ∧
      isBool = false) ∨
    (minMaxConst const null isBool discrete = (none, none) ∧
      ((∃ v : Rat, const = some v ∧ null = some (some v)) ∨ isBool = true ∨ const = none)) := by
  cases null with
  | none => cases isBool <;> cases discrete <;> cases const <;> simp [minMaxConst]
  | some e =>
    cases const with
    | none => cases isBool <;> cases discrete <;> simp [minMaxConst, numEq]
    | some x =>
      cases e with
      | none => cases isBool <;> cases discrete <;> simp [minMaxConst, numEq]
      | some y =>
        by_cases h : x = y
        · subst h; right; simp [minMaxConst, numEq]
        · cases isBool <;> cases discrete <;> simp [minMaxConst, numEq, h, Ne.symm h]

/-- The nodes written to the xml of a property that is not categorical: limits handed in are kept, others are the
limits of the array over all its elements that are not NaN.  For a discrete array of integers no rounding changes
them. -/
theorem C105_xml_partial (a : Arr Num) (minV maxV : Option Rat) (discrete : Bool)
    (hint : discrete = true → (∀ i v, a.elem i = some v → ∃ k : Int, v = k) ∧
      (∀ v, minV = some v ∨ maxV = some v → ∃ k : Int, v = k)) :
    let r := xmlNodes true false false (some a) none minV maxV discrete
    (minV ≠ none → r.1 = minV) ∧ (maxV ≠ none → r.2 = maxV) ∧
    (minV = none → maxV = none → Limits a (fun _ => True) r) := by
  have hl := limits_of a none (fun _ => True) (by simp [Hidden])
  have hints : discrete = true → ∀ v ∈ visible a none, ∃ k : Int, v = k := by
    intro hd v hv
    obtain ⟨i, -, -, h⟩ := (mem_visible a none v).mp hv
    exact (hint hd).1 i v h
  intro r
  have hr : r = (if minV = none then listMin (visible a none) else minV, if maxV = none then listMax (visible a none) else maxV) := by
    cases hd : discrete with
    | false => simp [r, xmlNodes, xmlMinMax, xmlContinuous, hd]
    | true =>
      have hm : ∀ o : Option Rat, (∀ v, o = some v → ∃ k : Int, v = k) →
          o.map (fun v => ((⌊v⌋ : Int) : Rat)) = o ∧ o.map (fun v => ((⌈v⌉ : Int) : Rat)) = o := by
        intro o ho
        cases o with
        | none => simp
        | some v => obtain ⟨k, rfl⟩ := ho v rfl; simp
      have h1 : ∀ v, (if minV = none then listMin (visible a none) else minV) = some v → ∃ k : Int, v = k := by
        intro v hv
        by_cases h : minV = none
        · rw [if_pos h] at hv; exact hints hd v ((listMin_least _).2 v hv).1
        · rw [if_neg h] at hv; exact (hint hd).2 v (Or.inl hv)
      have h2 : ∀ v, (if maxV = none then listMax (visible a none) else maxV) = some v → ∃ k : Int, v = k := by
        intro v hv
        by_cases h : maxV = none
        · rw [if_pos h] at hv; exact hints hd v ((listMax_greatest _).2 v hv).1
        · rw [if_neg h] at hv; exact (hint hd).2 v (Or.inr hv)
      simp only [r, xmlNodes, xmlMinMax, xmlDiscrete, hd, Bool.not_false, Bool.and_self, if_true, (hm _ h1).1, (hm _ h2).2]
  rw [hr]
  refine ⟨fun h => by simp [h], fun h => by simp [h], ?_⟩
  rintro h1 h2
  simp only [h1, h2, if_true]
  exact hl

/-- the null values of a discrete array count towards the minimum in the xml -/
theorem C105_xml_null_violated : ∃ (a : Arr Num) (null : Rat),
    (xmlNodes true false false (some a) none none none true).1 = some null ∧
    (∃ i, InShape a.shape i ∧ a.elem i = some null) ∧
    ∃ r, minMaxCached none a (some (some null)) true = .ok r ∧ r.1 ≠ some null := by
  refine ⟨⟨[2], fun i => if i = [0] then some (-1) else some 5⟩, -1, by decide +kernel, ⟨[0], ⟨by decide, trivial⟩, rfl⟩,
    (some 5, some 5), by decide +kernel, by decide +kernel⟩

/-- A discrete constant equal to the null value is written as minimum and maximum: the null value looked at is that of
the collection, which is never set. -/
theorem C105_xml_constant_violated : ∃ (v : Rat),
    xmlNodes true false false none (some (some v)) none none true = (some v, some v) ∧
    minMaxConst (some v) (some (some v)) false true = (none, none) :=
  ⟨-1, by decide +kernel, by decide +kernel⟩

example : ∃ (b : Arr Bool) (a : Arr Num), (some (some (-1)) : Option Num) ≠ some (some 0) ∧
    minMaxCached (some b) a (some (some (-1))) true = .ok (some 3, some 5) :=
  ⟨⟨[4], fun i => decide (i = [0])⟩,
    ⟨[4], fun i => if i = [0] then some 0 else if i = [1] then some (-1) else if i = [2] then some 5 else some 3⟩,
    by decide +kernel, by decide +kernel⟩

end Verif.PropColl
